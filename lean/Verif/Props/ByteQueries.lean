import Verif.Json.ContractQuery
import Verif.Json.SizeLemmas
import Verif.Props.ByteContract
import Verif.Props.Semver
/-!
# C104: queries and migrations on bytes

Asked with bytes, on a storage that holds the texts of a state, the contracts answer what they answer on the state.
-/

namespace Ibcx.Props
open Ibcx Ibcx.Json Ibcx.Spec Ibcx.Storage Ibcx.Iface

/-! ## Keys and scans -/

theorem textKey_text (s : String) : textKey (textBytes s) = some s := by
  unfold textKey textBytes
  rw [fromUtf8_text]
  simp

theorem foldl_bigEndian (k : Nat) : ∀ n acc, n < 256 ^ k →
    (bigEndian k n).foldl (fun n x => n * 256 + x) acc = acc * 256 ^ k + n := by
  induction k with
  | zero =>
    intro n acc h
    have : n = 0 := by simpa using h
    simp [bigEndian, this]
  | succ k ih =>
    intro n acc h
    have hq : n / 256 ^ k < 256 := by
      rw [Nat.div_lt_iff_lt_mul (by positivity), mul_comm, ← pow_succ]
      exact h
    simp only [bigEndian, List.foldl_cons]
    rw [ih _ _ (Nat.mod_lt _ (by positivity)), Nat.mod_eq_of_lt hq, add_mul, pow_succ]
    have := Nat.div_add_mod n (256 ^ k)
    nlinarith

theorem u64Key_bytes {n : Nat} (h : n < 2 ^ 64) : u64Key (u64Bytes n) = some n := by
  have hl : (u64Bytes n).length = 8 := bigEndian_length 8 n
  unfold u64Key
  rw [if_pos hl, u64Bytes, foldl_bigEndian 8 n 0 (by norm_num; omega)]
  simp

theorem sortKeys_val {V W : Type} (g : V → W) (m : Raw V) :
    sortKeys bytesLt (m.map (fun e => (e.1, g e.2))) = (sortKeys bytesLt m).map (fun e => (e.1, g e.2)) := by
  have ins : ∀ (e : Bytes × V) (es : List (Bytes × V)), insertKey bytesLt (e.1, g e.2) (es.map (fun e => (e.1, g e.2))) =
      (insertKey bytesLt e es).map (fun e => (e.1, g e.2)) := by
    intro e es
    induction es with
    | nil => rfl
    | cons x xs ih =>
      simp only [List.map_cons, insertKey]
      split
      · rfl
      · rw [ih]; rfl
  induction m with
  | nil => rfl
  | cons e m ih =>
    simp only [List.map_cons, sortKeys]
    rw [ih, ins]

theorem rangeWithPrefix_val {V W : Type} (g : V → W) (m : Raw V) (p : Bytes) (min max : Option Bytes) (order : RangeOrder) :
    rangeWithPrefix (m.map (fun e => (e.1, g e.2))) p min max order =
      (rangeWithPrefix m p min max order).map (fun e => (e.1, g e.2)) := by
  simp only [rangeWithPrefix, dbRange, sortKeys_val]
  cases order <;> simp [List.filter_map, Function.comp_def]

theorem get_val {V W : Type} (g : V → W) (m : Raw V) (k : Bytes) :
    KV.get (m.map (fun e => (e.1, g e.2))) k = (KV.get m k).map g := by
  induction m with
  | nil => rfl
  | cons e m ih =>
    obtain ⟨x, w⟩ := e
    by_cases h : x = k
    · simp [KV.get, h]
    · simpa [KV.get, h] using ih

theorem rawPage_val {V W : Type} (g : V → W) {b : Raw W} {m : Raw V}
    (h : ∀ p min max order, rangeWithPrefix b p min max order =
      (rangeWithPrefix m p min max order).map (fun e => (e.1, g e.2)))
    (p : Bytes) (start : Option Bytes) (limit : Option Nat) (order : Option RangeOrder) :
    rawPage b p start limit order = (rawPage m p start limit order).map (List.map (fun e => (e.1, g e.2))) := by
  unfold rawPage
  cases rangeOption start limit order with
  | error e => rfl
  | ok o => simp only [ok_bind, h, Except.map, List.map_take]

/-- Entries whose keys and values read back. -/
theorem readEntries_map {K T : Type} {key : Bytes → Option K} {val : Bytes → Option T} (f : K → Bytes) (g : T → Bytes)
    (es : List (K × T)) (h : ∀ e ∈ es, key (f e.1) = some e.1 ∧ val (g e.2) = some e.2) :
    readEntries key val (es.map (fun e => (f e.1, g e.2))) = .ok es := by
  induction es with
  | nil => rfl
  | cons e es ih =>
    have h1 := h e (by simp)
    simp only [List.map_cons, readEntries, h1.1, h1.2, ih (fun x hx => h x (by simp [hx])), ok_bind]

theorem rangeOption_map {K L : Type} (f : K → L) (start : Option K) (limit : Option Nat) (order : Option RangeOrder)
    (e : Err) : rangeOption (start.map f) limit order = .error e ↔ rangeOption start limit order = .error e := by
  unfold rangeOption
  cases getAndCheckLimit limit MAX_LIMIT DEFAULT_LIMIT <;> cases order.getD .asc <;> simp [Bind.bind, Except.bind]

theorem check_page {V : Type} {b : Raw V} {p part : Bytes} (start : Option Bytes) (limit : Option Nat)
    (order : Option RangeOrder) (h : part.length ≤ 0xFFFF) :
    (do
      checkPrefix start limit order part
      rawPage b p start limit order) = rawPage b p start limit order := by
  unfold checkPrefix rawPage
  cases rangeOption start limit order with
  | error e => rfl
  | ok o => simp [ok_bind, require, h]

/-! ## Core -/

/-- The denom whose routes a query asks for. -/
def routeSource : CoreQuery → Option Denom
  | .getTradeInfo i _ => some i
  | .listTradeInfo i _ _ _ => some i
  | _ => none

section
variable {v : ContractVersion} {b : Raw Bytes} {s : Core.State}

theorem core_scans (h : CoreRep b (coreAt v s)) (hr : Core.Reachable s) (hf : StateFits s) :
    ∀ p min max order, rangeWithPrefix b p min max order =
      (rangeWithPrefix (coreRaw v s) p min max order).map (fun e => (e.1, coreValText e.2)) := by
  have h0 := rep_coreRaw v (infos_nodup hr) hf.2
  have h1 : CoreRep ((coreRaw v s).map (fun e => (e.1, coreValText e.2))) (coreAt v s) := by
    refine ⟨?_, fun p hp => ?_, fun k hk => h0.only k fun e => hk (by rw [get_val, e]; rfl)⟩
    · rw [List.map_map]
      exact h0.nodup
    · rw [get_val, h0.get p hp]
      cases coreAt v s p <;> rfl
  intro p min max order
  rw [(core_rep_same h h1).2, rangeWithPrefix_val]

theorem core_routes (h : CoreRep b (coreAt v s)) (hr : Core.Reachable s) (hf : StateFits s) (hn : Texts.CoreStateFits s)
    {d : Denom} (hd : DenomFits d) (start : Option Denom) (limit : Option Nat) (order : Option RangeOrder) :
    coreWasmRoutes b d start limit order =
      (listTradeInfo s d start limit order).map (List.map fun e => convTradeInfo d e.1 e.2) := by
  have hp : (do
      checkPrefix (start.map textBytes) limit order (textBytes d)
      rawListTradeInfo b d start limit order) =
        (listTradeInfo s d start limit order).map (List.map fun e => (textBytes e.1, coreValText (.tradeInfo e.2))) := by
    unfold rawListTradeInfo
    rw [check_page _ _ _ hd, rawPage_val coreValText (core_scans h hr hf)]
    have := C93_core_listing v hr hf.2 hd start limit order
    unfold rawListTradeInfo at this
    rw [this]
    cases listTradeInfo s d start limit order with
    | error e => rfl
    | ok es => simp [Except.map, Function.comp_def]
  have e : coreWasmRoutes b d start limit order = (do
      let es ← (do
        checkPrefix (start.map textBytes) limit order (textBytes d)
        rawListTradeInfo b d start limit order)
      let es ← readEntries textKey tradeInfo.ofText es
      .ok (es.map fun e => convTradeInfo d e.1 e.2)) := by
    unfold coreWasmRoutes
    cases checkPrefix (start.map textBytes) limit order (textBytes d) <;> rfl
  rw [e, hp]
  cases hx : listTradeInfo s d start limit order with
  | error e => rfl
  | ok es =>
    simp only [Except.map, ok_bind]
    rw [readEntries_map textBytes (fun t => coreValText (.tradeInfo t)) es ?_]
    · rfl
    · intro x hm
      refine ⟨textKey_text x.1, ofText_toText tradeInfo_faithful ?_⟩
      obtain ⟨y, hy, rfl⟩ := List.mem_map.1 (page_sub hx x hm)
      exact hn.infos y (List.mem_filter.1 hy).1

theorem core_answer (h : CoreRep b (coreAt v s)) (hr : Core.Reachable s) (hf : StateFits s) (hn : Texts.CoreStateFits s)
    (bank : Addr → Denom → Nat) (env : Env) (q : CoreQuery) (hq : ∀ d, routeSource q = some d → DenomFits d) :
    coreWasmAnswer bank b env q = coreAnswer bank s env q := by
  have rd := coreReads_text hn
  cases q with
  | getBalance a => simp only [coreWasmAnswer, coreAnswer, coreWasmBalance, h.config rd.config, ok_bind, getBalance]
  | getTotalSupply => simp only [coreWasmAnswer, coreAnswer, get_supply h rd]
  | getConfig t => simp only [coreWasmAnswer, coreAnswer, get_config h rd]
  | getFee t => simp only [coreWasmAnswer, coreAnswer, get_fee h rd]
  | getPortfolio t => simp only [coreWasmAnswer, coreAnswer, get_portfolio h rd]
  | getRebalance => simp only [coreWasmAnswer, coreAnswer, get_rebalance h rd]
  | getTradeInfo i o => simp only [coreWasmAnswer, coreAnswer, get_trade_info h rd i o (hq i rfl), Except.map]
  | listTradeInfo i start limit order => simp only [coreWasmAnswer, coreAnswer, core_routes h hr hf hn (hq i rfl)]
  | simulateMint amount funds t => simp only [coreWasmAnswer, coreAnswer, simulate_mint h rd]
  | simulateBurn amount t => simp only [coreWasmAnswer, coreAnswer, simulate_burn h rd]

end

/-! ## Airdrop -/

/-- The creator whose airdrops a query lists. -/
def listedCreator : ListOption → Option String
  | .byCreator a _ _ _ => some a
  | _ => none

section
variable {v : ContractVersion} {b : Raw Bytes} {c : Airdrop.Crypto} {s : Airdrop.State}

theorem drop_scans (h : Rep b (dropAt v s)) (hr : Airdrop.Reachable c s)
    (hc : ∀ e ∈ s.drops, (textBytes e.2.creator).length ≤ 0xFFFF) :
    (∀ k, b.get k = ((dropRaw v s).get k).map dropValText) ∧
    ∀ p min max order, rangeWithPrefix b p min max order =
      (rangeWithPrefix (dropRaw v s) p min max order).map (fun e => (e.1, dropValText e.2)) := by
  have h0 := rep_dropRaw v hr hc
  have h1 : Rep ((dropRaw v s).map (fun e => (e.1, dropValText e.2))) (dropAt v s) := by
    refine ⟨?_, fun p hp => ?_, fun k hk => h0.only k fun e => hk (by rw [get_val, e]; rfl)⟩
    · rw [List.map_map]
      exact h0.nodup
    · rw [get_val, h0.get p hp]
      cases dropAt v s p <;> rfl
  refine ⟨fun k => by rw [(rep_same h h1).1, get_val], fun p min max order => ?_⟩
  rw [(rep_same h h1).2, rangeWithPrefix_val]

theorem load_index_text (h : Rep b (dropAt v s)) (hr : Airdrop.Reachable c s)
    (hc : ∀ e ∈ s.drops, (textBytes e.2.creator).length ≤ 0xFFFF) (k : Bytes) :
    loadIndexed (uint 32).ofText b (k, dropValText (.pkLen 8)) =
      (loadIndexed DropVal.asPkLen (dropRaw v s) (k, .pkLen 8)).map (fun e => (e.1, dropValText e.2)) := by
  have e8 : (uint 32).ofText (dropValText (.pkLen 8)) = some 8 := ofText_toText (uint_faithful 32) (by show (8 : Nat) < 2 ^ 32; norm_num)
  simp only [loadIndexed, e8, DropVal.asPkLen, (drop_scans h hr hc).1]
  split
  · cases (dropRaw v s).get (prefixBytes "airdrops" [] ++ List.drop (k.length - 8) k) <;> rfl
  · rfl

theorem load_index_page (h : Rep b (dropAt v s)) (hr : Airdrop.Reachable c s)
    (hc : ∀ e ∈ s.drops, (textBytes e.2.creator).length ≤ 0xFFFF) {es : List (Nat × Airdrop.Drop)}
    (hs : ∀ e ∈ es, e ∈ s.drops) :
    (es.map (fun e => (u64Bytes e.1, dropValText (.pkLen 8)))).mapM (loadIndexed (uint 32).ofText b) =
      .ok (es.map (fun e => (u64Bytes e.1, dropValText (.drop e.2)))) := by
  have key := load_page v hr hc hs
  generalize hl : (es.map (fun e => (u64Bytes e.1, DropVal.drop e.2))) = out at key
  have e1 : es.map (fun e => (u64Bytes e.1, dropValText (.drop e.2))) = out.map (fun e => (e.1, dropValText e.2)) := by
    rw [← hl, List.map_map]
    rfl
  rw [e1]
  clear hs hl e1
  induction es generalizing out with
  | nil =>
    cases key
    rfl
  | cons e es ih =>
    simp only [List.map_cons, List.mapM_cons] at key ⊢
    obtain ⟨x, hx, key⟩ := bind_eq_ok.1 key
    obtain ⟨xs, hxs, key⟩ := bind_eq_ok.1 key
    cases key
    rw [load_index_text h hr hc, hx, ih xs hxs]
    rfl

theorem drop_indexed (h : Rep b (dropAt v s)) (hr : Airdrop.Reachable c s)
    (hc : ∀ e ∈ s.drops, (textBytes e.2.creator).length ≤ 0xFFFF) (hn : Texts.DropStateFits s) (ns : String) (text : String)
    (sel : Nat × Airdrop.Drop → Bool) {start : Option Nat} (limit : Option Nat) (order : Option RangeOrder)
    (hs : ∀ k, start = some k → k < 2 ^ 64) (h1 : (textBytes ns).length < 256) (h2 : dropArity ns = 1)
    (h3 : (textBytes text).length ≤ 0xFFFF)
    (h4 : under ns [textBytes text] (dropSlots v s) =
      (s.drops.filter sel).map (fun e => (u64Bytes e.1, DropVal.pkLen 8))) :
    (do
      let es ← rawPage b (prefixBytes ns [textBytes text]) (start.map u64Bytes) limit order
      let es ← es.mapM (loadIndexed (uint 32).ofText b)
      readEntries u64Key drop.ofText es) = page natLt (s.drops.filter sel) start limit order := by
  rw [rawPage_val dropValText (drop_scans h hr hc).2, index_page v (drop_fits hr hc) ns text sel limit order hs h1 h2 h3 h4]
  cases hx : page natLt (s.drops.filter sel) start limit order with
  | error e => rfl
  | ok es =>
    have sub : ∀ e ∈ es, e ∈ s.drops := fun e he => (List.mem_filter.1 (page_sub hx e he)).1
    simp only [Except.map, ok_bind, List.map_map, Function.comp_def]
    rw [load_index_page h hr hc sub, ok_bind]
    refine readEntries_map u64Bytes (fun a => dropValText (.drop a)) es fun e he => ?_
    exact ⟨u64Key_bytes (hn.drops e (sub e he)).1, ofText_toText drop_faithful (hn.drops e (sub e he)).2⟩

theorem drop_load (h : Rep b (dropAt v s)) (hn : Texts.DropStateFits s) {id : Airdrop.DropId} (hid : dropId.Fits id) :
    rawLoadAirdrop b id = Airdrop.loadAirdrop s id :=
  h.loadAirdrop (dropReads_text hn) (fun l n hl => hn.labels (l, n) (KV.mem_of_get hl)) (fun n e => by subst e; exact hid)

theorem drop_list (h : Rep b (dropAt v s)) (hr : Airdrop.Reachable c s)
    (hc : ∀ e ∈ s.drops, (textBytes e.2.creator).length ≤ 0xFFFF) (hn : Texts.DropStateFits s) (env : Env) (o : ListOption)
    (ho : listOption.Fits o) (hl : ∀ a, listedCreator o = some a → (textBytes a).length ≤ 0xFFFF) :
    dropWasmList b env o = listAnswer s env o := by
  have rd := dropReads_text hn
  have small : ∀ {start : Option Nat}, (uint 64).opt.Fits start → ∀ k, start = some k → k < 2 ^ 64 := by
    intro start hf k e
    exact hf k e
  have raw := fun limit order => C93_airdrop_listings v hr hc limit order
  cases o with
  | byId start limit order =>
    have hp : rawListById b start limit order = (Airdrop.listById s start limit order).map
        (List.map fun e => (u64Bytes e.1, dropValText (.drop e.2))) := by
      have := ((raw limit order).1 start (small ho.1)).1
      unfold rawListById at this ⊢
      rw [rawPage_val dropValText (drop_scans h hr hc).2, this]
      cases Airdrop.listById s start limit order with
      | error e => rfl
      | ok es => simp [Except.map, Function.comp_def]
    simp only [dropWasmList, listAnswer]
    rw [hp]
    cases hx : Airdrop.listById s start limit order with
    | error e => rfl
    | ok es =>
      simp only [Except.map, ok_bind]
      refine readEntries_map u64Bytes (fun a => dropValText (.drop a)) es fun e he => ?_
      have := page_sub hx e he
      exact ⟨u64Key_bytes (hn.drops e this).1, ofText_toText drop_faithful (hn.drops e this).2⟩
  | byType t start limit order =>
    simp only [dropWasmList, listAnswer, rawListByType, Airdrop.listByType]
    rw [← drop_indexed h hr hc hn "airdrops__by_type" (typeText t) (fun e => e.2.typeOf = t) limit order (small ho.1)
      (by decide) rfl (by cases t <;> decide) (drop_under_type v s t), bind_assoc]
    rfl
  | byLabel start limit order =>
    have hp : rawListLabels b start limit order = (page strLt s.labels start limit order).map
        (List.map fun e => (textBytes e.1, dropValText (.label e.2))) := by
      have := (raw limit order).2.1 start
      unfold rawListLabels at this ⊢
      rw [rawPage_val dropValText (drop_scans h hr hc).2, this]
      cases page strLt s.labels start limit order with
      | error e => rfl
      | ok es => simp [Except.map, Function.comp_def]
    simp only [dropWasmList, listAnswer, Airdrop.listByLabel]
    rw [hp]
    cases hx : page strLt s.labels start limit order with
    | error e => rfl
    | ok es =>
      have sub := page_sub hx
      simp only [Except.map, ok_bind]
      rw [readEntries_map (val := DropCell.asLabel) textBytes (fun n => dropValText (.label n)) es fun e he =>
        ⟨textKey_text e.1, ofText_toText (uint_faithful 64) (hn.labels e (sub e he))⟩, ok_bind]
      clear hx hp
      induction es with
      | nil => rfl
      | cons e es ih =>
        simp only [loadLabelledRaw, Airdrop.loadLabelled]
        rw [h.drop rd.drops (hn.labels e (sub e (by simp))), ih fun x hx => sub x (by simp [hx])]
  | byCreator creator start limit order =>
    simp only [dropWasmList, listAnswer, Airdrop.listByCreator]
    cases hrange : rangeOption start limit order with
    | error e => rfl
    | ok o =>
      simp only [ok_bind]
      cases hval : validate env creator with
      | error e => rfl
      | ok a =>
        have ea : a = creator := by
          unfold validate at hval
          split at hval <;> cases hval
          rfl
        subst ea
        simp only [ok_bind]
        rw [← drop_indexed h hr hc hn "airdrops__by_creator" a (fun e => e.2.creator = a) limit order (small ho.1)
          (by decide) rfl (hl a rfl) (drop_under_creator v s a)]
        have := check_page (b := b) (p := prefixBytes "airdrops__by_creator" [textBytes a]) (start.map u64Bytes) limit order
          (hl a rfl)
        rw [← this]
        simp only [rawListByCreator, bind_assoc]
        rfl

theorem drop_claims (h : Rep b (dropAt v s)) (hr : Airdrop.Reachable c s)
    (hc : ∀ e ∈ s.drops, (textBytes e.2.creator).length ≤ 0xFFFF) (hn : Texts.DropStateFits s) {id : Airdrop.DropId}
    (hid : dropId.Fits id) (start : Option String) (limit : Option Nat) (order : Option RangeOrder) :
    dropWasmClaims b id start limit order = claimAnswers s id start limit order := by
  unfold dropWasmClaims claimAnswers
  rw [drop_load h hn hid]
  cases hl : Airdrop.loadAirdrop s id with
  | error e => rfl
  | ok p =>
    obtain ⟨n, a⟩ := p
    simp only [ok_bind]
    have hp : rawListClaims b n start limit order = (Airdrop.listClaims s id start limit order).map
        (List.map fun e => (textBytes e.1, dropValText (.claim e.2))) := by
      have := (C93_airdrop_listings v hr hc limit order).2.2 start id n a hl
      unfold rawListClaims at this ⊢
      rw [rawPage_val dropValText (drop_scans h hr hc).2, this]
      cases Airdrop.listClaims s id start limit order with
      | error e => rfl
      | ok es => simp [Except.map, Function.comp_def]
    rw [hp]
    cases hx : Airdrop.listClaims s id start limit order with
    | error e => rfl
    | ok es =>
      simp only [Except.map, ok_bind]
      rw [readEntries_map textBytes (fun n => dropValText (.claim n)) es ?_]
      · rfl
      · intro e he
        refine ⟨textKey_text e.1, ofText_toText u128_faithful ?_⟩
        simp only [Airdrop.listClaims, hl, ok_bind] at hx
        obtain ⟨y, hy, rfl⟩ := List.mem_map.1 (page_sub hx e he)
        exact (hn.claims y (List.mem_filter.1 hy).1).2

theorem drop_labels (h : Rep b (dropAt v s)) (hr : Airdrop.Reachable c s)
    (hc : ∀ e ∈ s.drops, (textBytes e.2.creator).length ≤ 0xFFFF) (hn : Texts.DropStateFits s) (start : Option String)
    (limit : Option Nat) (order : Option RangeOrder) :
    dropWasmLabels b start limit order = Airdrop.listLabels s start limit order := by
  unfold dropWasmLabels Airdrop.listLabels
  have hp : rawListLabels b start limit order = (page strLt s.labels start limit order).map
      (List.map fun e => (textBytes e.1, dropValText (.label e.2))) := by
    have := (C93_airdrop_listings v hr hc limit order).2.1 start
    unfold rawListLabels at this ⊢
    rw [rawPage_val dropValText (drop_scans h hr hc).2, this]
    cases page strLt s.labels start limit order with
    | error e => rfl
    | ok es => simp [Except.map, Function.comp_def]
  rw [hp]
  cases hx : page strLt s.labels start limit order with
  | error e => rfl
  | ok es =>
    simp only [Except.map, ok_bind]
    rw [readEntries_map (val := DropCell.asLabel) textBytes (fun n => dropValText (.label n)) es fun e he =>
      ⟨textKey_text e.1, ofText_toText (uint_faithful 64) (hn.labels e (page_sub hx e he))⟩]
    rfl

theorem drop_verify (h : Rep b (dropAt v s)) (hn : Texts.DropStateFits s) (reason : Airdrop.ClaimPayload → String)
    (p : Airdrop.ClaimPayload) (hp : claimPayload.Fits p) : dropWasmVerify c reason b p = verifyAnswer c reason s p := by
  cases p with
  | openDrop id amount account proof =>
    simp only [dropWasmVerify, verifyAnswer, Airdrop.verifyClaim]
    rw [drop_load h hn hp.1]
    cases Airdrop.loadAirdrop s id with
    | error e => rfl
    | ok q =>
      obtain ⟨n, a⟩ := q
      simp only [ok_bind]
      cases a.unwrapOpen with
      | error e => rfl
      | ok a =>
        simp only [ok_bind]
        split
        · rfl
        · cases account with
          | none => rfl
          | some acc =>
            dsimp only
            cases Airdrop.verifyMerkleProof c a.merkleRoot proof acc amount <;> rfl
  | bearer id amount account hash sign proof =>
    cases account with
    | none => rfl
    | some acc =>
      simp only [dropWasmVerify, verifyAnswer, Airdrop.verifyClaim]
      rw [drop_load h hn hp.1]
      cases Airdrop.loadAirdrop s id with
      | error e => rfl
      | ok q =>
        obtain ⟨n, a⟩ := q
        simp only [ok_bind]
        cases a.unwrapBearer with
        | error e => rfl
        | ok q =>
          obtain ⟨a, pub⟩ := q
          simp only [ok_bind]
          split
          · rfl
          · cases Airdrop.verifyMerkleProof c a.merkleRoot proof acc amount with
            | error e => rfl
            | ok u =>
              dsimp only
              cases Airdrop.hexDecode sign with
              | error e => rfl
              | ok sig =>
                simp only [ok_bind]
                cases c.verify (c.sha (Airdrop.utf8 (Airdrop.signText hash acc amount))) sig pub with
                | error e => rfl
                | ok y => cases y <;> rfl

theorem drop_answer (h : Rep b (dropAt v s)) (hr : Airdrop.Reachable c s)
    (hc : ∀ e ∈ s.drops, (textBytes e.2.creator).length ≤ 0xFFFF) (hn : Texts.DropStateFits s)
    (reason : Airdrop.ClaimPayload → String) (env : Env) (q : DropQuery) (hq : dropQuery.Fits q)
    (hl : ∀ o a, q = .listAirdrops o → listedCreator o = some a → (textBytes a).length ≤ 0xFFFF) :
    dropWasmAnswer c reason b env q = dropAnswer c reason s env q := by
  have rd := dropReads_text hn
  cases q with
  | getAirdrop id => simp only [dropWasmAnswer, dropAnswer, Airdrop.getAirdrop, drop_load h hn hq]
  | listAirdrops o => simp only [dropWasmAnswer, dropAnswer, drop_list h hr hc hn env o hq (fun a => hl o a rfl)]
  | latestAirdropId => simp only [dropWasmAnswer, dropAnswer, h.latest rd.latest, Airdrop.latestAirdropId]
  | getClaim id key =>
    simp only [dropWasmAnswer, dropAnswer, dropWasmClaim, claimAnswer, Airdrop.getClaim, drop_load h hn hq]
    cases hx : Airdrop.loadAirdrop s id with
    | error e => rfl
    | ok p =>
      obtain ⟨n, a⟩ := p
      have hid : n < 2 ^ 64 := (hn.drops _ (KV.mem_of_get (Airdrop.loadAirdrop_eq_ok.1 hx).2)).1
      have : rawLoad b (.claim n key) DropCell.asClaim = s.claims.load (n, key) := by
        unfold rawLoad
        rw [h.may (p := .claim n key) hid _ (mk := .claim) (x := s.claims.get (n, key)) rfl (rd.claims _)]
        simp only [KV.load, Bind.bind, Except.bind]
        cases s.claims.get (n, key) <;> rfl
      simp only [ok_bind]
      rw [this]
  | verifyClaim p => simp only [dropWasmAnswer, dropAnswer, drop_verify h hn reason p hq]
  | listClaims id start limit order => simp only [dropWasmAnswer, dropAnswer, drop_claims h hr hc hn hq.1]
  | getLabel l => simp only [dropWasmAnswer, dropAnswer, dropWasmLabel, Airdrop.getLabel, h.label rd.labels]
  | listLabels start limit order => simp only [dropWasmAnswer, dropAnswer, drop_labels h hr hc hn]

end

/-! ## Short messages -/

theorem short_read {α : Type} {c : Codec α} {b : Bytes} {a : α} (h : readMsg c b = .ok a) :
    ∃ j, Short b.length j ∧ c.dec j = some a := by
  obtain ⟨j, hj, hd⟩ := readMsg_eq_ok.1 h
  exact ⟨j, ofBytes_size hj, hd⟩

theorem govMsg_short {j : Json.Json} {m : Core.GovMsg} (hj : Short 0xFFFF j) (h : govMsg.dec j = some m) :
    CoreSendable (.gov m) := by
  refine short_oneOf hj h (short_cons ?_ (short_cons ?_ (short_cons ?_ (short_cons ?_ (short_cons ?_ (short_cons ?_ (short_cons ?_
    (short_cons ?_ (short_cons ?_ short_nil)))))))))
  · exact fun b _ => then_fits fun fs _ => then_fits fun e _ => done_fits (P := fun m => CoreSendable (.gov m)) trivial
  · exact fun b _ => then_fits fun fs _ => done_fits (P := fun m => CoreSendable (.gov m)) trivial
  · exact fun b _ => then_fits fun fs _ => done_fits (P := fun m => CoreSendable (.gov m)) trivial
  · exact fun b _ => then_fits fun fs _ => done_fits (P := fun m => CoreSendable (.gov m)) trivial
  · exact fun b _ => then_fits fun fs _ => done_fits (P := fun m => CoreSendable (.gov m)) trivial
  · exact fun b _ => then_fits fun fs _ => done_fits (P := fun m => CoreSendable (.gov m)) trivial
  · exact fun b _ => then_fits fun fs _ => done_fits (P := fun m => CoreSendable (.gov m)) trivial
  · exact fun b hb => then_fits fun d hd => done_fits (P := fun m => CoreSendable (.gov m)) (short_text hb hd)
  · exact fun b hb => then_fits fun fs hfs => then_fits fun d hd => then_fits fun _ _ => then_fits fun _ _ => then_fits fun _ _ =>
      done_fits (P := fun m => CoreSendable (.gov m)) (short_req_text (short_record hb hfs) hd)

theorem tradeMsg_short {j : Json.Json} {m : Core.TradeMsg} (hj : Short 0xFFFF j) (h : tradeMsg.dec j = some m) :
    CoreSendable (.rebalance (.trade m)) := by
  refine short_oneOf hj h (short_cons ?_ (short_cons ?_ short_nil))
  · exact fun b hb => then_fits fun fs hfs => then_fits fun d hd => then_fits fun _ _ => then_fits fun _ _ =>
      done_fits (P := fun m => CoreSendable (.rebalance (.trade m))) (short_req_text (short_record hb hfs) hd)
  · exact fun b hb => then_fits fun fs hfs => then_fits fun d hd => then_fits fun _ _ => then_fits fun _ _ =>
      done_fits (P := fun m => CoreSendable (.rebalance (.trade m))) trivial

theorem rebalanceMsg_short {j : Json.Json} {m : Core.RebalanceMsg} (hj : Short 0xFFFF j) (h : rebalanceMsg.dec j = some m) :
    CoreSendable (.rebalance m) := by
  refine short_oneOf hj h (short_cons ?_ (short_cons ?_ (short_cons ?_ short_nil)))
  · exact fun b hb => then_fits fun fs hfs => then_fits fun d hd => then_fits fun _ _ => then_fits fun _ _ =>
      done_fits (P := fun m => CoreSendable (.rebalance m)) trivial
  · exact fun b hb => then_fits fun t ht => done_fits (P := fun m => CoreSendable (.rebalance m)) (tradeMsg_short hb ht)
  · exact fun b hb => then_fits fun fs _ => done_fits (P := fun m => CoreSendable (.rebalance m)) trivial

/-- The denoms in a message of at most `0xFFFF` bytes fit the length prefix of a key. -/
theorem coreExecute_short {b : Bytes} {m : Core.ExecMsg} (hb : b.length ≤ 0xFFFF) (h : readMsg coreExecute b = .ok m) :
    CoreSendable m := by
  obtain ⟨j, hj, h⟩ := short_read h
  have hj : Short 0xFFFF j := fun s hs => (hj s hs).trans hb
  refine short_oneOf hj h (short_cons ?_ (short_cons ?_ (short_cons ?_ (short_cons ?_ (short_cons ?_ short_nil)))))
  · exact fun b _ => then_fits fun fs _ => then_fits fun a _ => then_fits fun x _ => then_fits fun y _ => done_fits trivial
  · exact fun b _ => then_fits fun fs _ => then_fits fun a _ => done_fits trivial
  · exact fun b _ => then_fits fun fs _ => done_fits trivial
  · exact fun b hb => then_fits fun t ht => done_fits (govMsg_short hb ht)
  · exact fun b hb => then_fits fun t ht => done_fits (rebalanceMsg_short hb ht)

theorem coreInstantiate_short {b : Bytes} {m : Core.InstantiateMsg} (h : readMsg Json.coreInstantiate b = .ok m) :
    (textBytes m.reserveDenom).length ≤ b.length := by
  obtain ⟨j, hj, h⟩ := short_read h
  revert h
  exact then_fits fun fs hfs => then_fits fun _ _ => then_fits fun _ _ => then_fits fun _ _ => then_fits fun _ _ =>
    then_fits fun d hd => done_fits (P := fun m : Core.InstantiateMsg => (textBytes m.reserveDenom).length ≤ b.length)
      (short_req_text (short_record hj hfs) hd)

/-- The denom whose routes are asked for in a message fits the message. -/
theorem coreQuery_short {b : Bytes} {q : CoreQuery} (h : readMsg coreQuery b = .ok q) (d : Denom) (hd : routeSource q = some d) :
    (textBytes d).length ≤ b.length := by
  obtain ⟨j, hj, h⟩ := short_read h
  revert d
  let P : CoreQuery → Prop := fun q => ∀ d, routeSource q = some d → (textBytes d).length ≤ b.length
  have none_ok : ∀ q, routeSource q = none → P q := fun q hq d hd => by rw [hq] at hd; cases hd
  refine short_oneOf hj h (short_cons ?_ (short_cons ?_ (short_cons ?_ (short_cons ?_ (short_cons ?_ (short_cons ?_ (short_cons ?_
    (short_cons ?_ (short_cons ?_ (short_cons ?_ short_nil))))))))))
  · exact fun b _ => then_fits fun fs _ => then_fits fun a _ => done_fits (P := P) (none_ok _ rfl)
  · exact fun b _ => then_fits fun fs _ => done_fits (P := P) (none_ok _ rfl)
  · exact fun b _ => then_fits fun fs _ => then_fits fun a ha => done_fits (P := P) (none_ok _ rfl)
  · exact fun b _ => then_fits fun fs _ => then_fits fun a ha => done_fits (P := P) (none_ok _ rfl)
  · exact fun b _ => then_fits fun fs _ => then_fits fun a ha => done_fits (P := P) (none_ok _ rfl)
  · exact fun b _ => then_fits fun fs _ => done_fits (P := P) (none_ok _ rfl)
  · exact fun b hb => then_fits fun fs hfs => then_fits fun a ha => then_fits fun c _ => done_fits (P := P) fun d hd => by
      cases hd
      exact short_req_text (short_record hb hfs) ha
  · exact fun b hb => then_fits fun fs hfs => then_fits fun a ha => then_fits fun c _ => then_fits fun _ _ => then_fits fun _ _ =>
      done_fits (P := P) fun d hd => by
        cases hd
        exact short_req_text (short_record hb hfs) ha
  · exact fun b _ => then_fits fun fs _ => then_fits fun a ha => then_fits fun c hc => then_fits fun t ht =>
      done_fits (P := P) (none_ok _ rfl)
  · exact fun b _ => then_fits fun fs _ => then_fits fun a ha => then_fits fun t ht => done_fits (P := P) (none_ok _ rfl)

theorem listOption_short {k : Nat} {j : Json.Json} {o : ListOption} (hj : Short k j) (h : listOption.dec j = some o) (a : String)
    (ha : listedCreator o = some a) : (textBytes a).length ≤ k := by
  revert a
  let P : ListOption → Prop := fun o => ∀ a, listedCreator o = some a → (textBytes a).length ≤ k
  have none_ok : ∀ o, listedCreator o = none → P o := fun q hq d hd => by rw [hq] at hd; cases hd
  refine short_oneOf hj h (short_cons ?_ (short_cons ?_ (short_cons ?_ (short_cons ?_ short_nil))))
  · exact fun b _ => then_fits fun fs _ => then_fits fun _ _ => then_fits fun _ _ => then_fits fun _ _ =>
      done_fits (P := P) (none_ok _ rfl)
  · exact fun b _ => then_fits fun fs _ => then_fits fun _ _ => then_fits fun _ _ => then_fits fun _ _ => then_fits fun _ _ =>
      done_fits (P := P) (none_ok _ rfl)
  · exact fun b _ => then_fits fun fs _ => then_fits fun _ _ => then_fits fun _ _ => then_fits fun _ _ =>
      done_fits (P := P) (none_ok _ rfl)
  · exact fun b hb => then_fits fun fs hfs => then_fits fun x hx => then_fits fun _ _ => then_fits fun _ _ => then_fits fun _ _ =>
      done_fits (P := P) fun a ha => by
        cases ha
        exact short_req_text (short_record hb hfs) hx

/-- The creator whose airdrops are asked for in a message fits the message. -/
theorem dropQuery_short {b : Bytes} {q : DropQuery} (h : readMsg dropQuery b = .ok q) (o : ListOption) (a : String)
    (ho : q = .listAirdrops o) (ha : listedCreator o = some a) : (textBytes a).length ≤ b.length := by
  obtain ⟨j, hj, h⟩ := short_read h
  revert o a
  let P : DropQuery → Prop := fun q => ∀ o a, q = .listAirdrops o → listedCreator o = some a → (textBytes a).length ≤ b.length
  have none_ok : ∀ q, (∀ o, q ≠ .listAirdrops o) → P q := fun q hq o a ho => absurd ho (hq o)
  refine short_oneOf hj h (short_cons ?_ (short_cons ?_ (short_cons ?_ (short_cons ?_ (short_cons ?_ (short_cons ?_ (short_cons ?_
    (short_cons ?_ short_nil))))))))
  · exact fun b _ => then_fits fun fs _ => then_fits fun a _ => done_fits (P := P) (none_ok _ (by simp))
  · exact fun b hb => then_fits fun fs hfs => then_fits fun x hx => done_fits (P := P) fun o a ho ha => by
      cases ho
      obtain ⟨y, hy, hd⟩ := short_req (short_record hb hfs) hx
      exact listOption_short hy hd a ha
  · exact fun b _ => then_fits fun fs _ => done_fits (P := P) (none_ok _ (by simp))
  · exact fun b _ => then_fits fun fs _ => then_fits fun a _ => then_fits fun _ _ => done_fits (P := P) (none_ok _ (by simp))
  · exact fun b _ => then_fits fun fs _ => then_fits fun a _ => done_fits (P := P) (none_ok _ (by simp))
  · exact fun b _ => then_fits fun fs _ => then_fits fun a _ => then_fits fun _ _ => then_fits fun _ _ => then_fits fun _ _ =>
      done_fits (P := P) (none_ok _ (by simp))
  · exact fun b _ => then_fits fun fs _ => then_fits fun a _ => done_fits (P := P) (none_ok _ (by simp))
  · exact fun b _ => then_fits fun fs _ => then_fits fun a _ => then_fits fun _ _ => then_fits fun _ _ =>
      done_fits (P := P) (none_ok _ (by simp))

/-! ## Histories -/

theorem core_text_fits {s : Core.State} (hr : Core.Reachable s) (hf : StateFits s) (ts : List TextCall)
    (hl : ∀ t ∈ ts, t.text.length ≤ 0xFFFF) : Core.Reachable (coreTextRun s ts).1 ∧ StateFits (coreTextRun s ts).1 := by
  induction ts generalizing s with
  | nil => exact ⟨hr, hf⟩
  | cons t ts ih =>
    have rest := fun x hx => hl x (List.mem_cons_of_mem t hx)
    cases hx : coreExecuteText s t.env t.info t.text with
    | error e => simpa only [coreTextRun, coreTextStep, hx] using ih hr hf rest
    | ok o =>
      obtain ⟨s', ms⟩ := o
      obtain ⟨m, hm, hst⟩ := core_text_step hx
      have hr' : Core.Reachable s' := by
        rw [← hst]
        exact hr.run [_]
      have hf' : StateFits s' := by
        rw [← hst]
        exact fits_step hf (infos_nodup hr) (coreExecute_short (hl t (by simp)) hm)
      simpa only [coreTextRun, coreTextStep, hx] using ih hr' hf' rest

theorem drop_text_fits (c : Airdrop.Crypto) {s : Airdrop.State} (hr : Airdrop.Reachable c s)
    (hc : ∀ e ∈ s.drops, (textBytes e.2.creator).length ≤ 0xFFFF) (ts : List TextCall)
    (hl : ∀ t ∈ ts, (textBytes t.info.sender).length ≤ 0xFFFF) :
    Airdrop.Reachable c (dropTextRun c s ts).1 ∧
    ∀ e ∈ (dropTextRun c s ts).1.drops, (textBytes e.2.creator).length ≤ 0xFFFF := by
  induction ts generalizing s with
  | nil => exact ⟨hr, hc⟩
  | cons t ts ih =>
    have rest := fun x hx => hl x (List.mem_cons_of_mem t hx)
    cases hx : dropExecuteText c s t.env t.info t.text with
    | error e => simpa only [dropTextRun, dropTextStep, hx] using ih hr hc rest
    | ok o =>
      obtain ⟨s', ms⟩ := o
      obtain ⟨m, hm, hst⟩ := drop_text_step hx
      have hr' : Airdrop.Reachable c s' := by
        rw [← hst]
        exact hr.run [_]
      have hc' : ∀ e ∈ s'.drops, (textBytes e.2.creator).length ≤ 0xFFFF := by
        rw [← hst]
        refine creators_fit (c := c) ⟨?_, hl t (by simp)⟩ (drops_nodup c hr).1 hc
        exact named_small hm
      simpa only [dropTextRun, dropTextStep, hx] using ih hr' hc' rest

/-! ## The properties -/

/-- **C104 (core).** On a storage that holds the texts of a reachable state, a query of at most 65535 bytes gets, byte for byte,
the answer or the error that the state gives. -/
theorem C104_core_query {dec : Nat → String} (hd : ∀ n, Texts.IsDecimal n (dec n)) {v : ContractVersion} {b : Raw Bytes}
    {s : Core.State} (h : Texts.CoreStored dec v b s) (hr : Core.Reachable s) (hf : StateFits s) (hn : Texts.CoreStateFits s)
    (bank : Addr → Denom → Nat) (env : Env) (text : Bytes) (hl : text.length ≤ 0xFFFF) :
    coreWasmQuery bank b env text = coreQueryText bank s env text := by
  unfold coreWasmQuery coreQueryText
  cases hm : readMsg coreQuery text with
  | error e => rfl
  | ok q =>
    exact core_answer ((core_stored_iff hd s).1 h) hr hf hn bank env q fun d hd => (coreQuery_short hm d hd).trans hl

/-- Governance sets a route, as text. -/
def routeTexts : List TextCall :=
  [⟨Demo.env 1000, ⟨"gov", []⟩, textBytes ("{\"gov\":{\"update_trade_info\":{\"denom\":\"uosmo\"," ++
    "\"routes\":[{\"pool_id\":2,\"token_denom\":\"uion\"}],\"cooldown\":60,\"max_trade_amount\":\"1000\"}}}")⟩]

theorem routeTexts_run : (coreTextRun Demo.s0 routeTexts).1 = routed := by
  have e : readMsg coreExecute (textBytes ("{\"gov\":{\"update_trade_info\":{\"denom\":\"uosmo\"," ++
      "\"routes\":[{\"pool_id\":2,\"token_denom\":\"uion\"}],\"cooldown\":60,\"max_trade_amount\":\"1000\"}}}")) =
      .ok (.gov (.updateTradeInfo "uosmo" [⟨2, "uion"⟩] 60 1000)) := by decide +kernel
  rw [coreTextRun_eq]
  simp only [routeTexts, coreReadable, e]
  rfl

/-- What the state with a route answers. -/
theorem routed_answers (bank : Addr → Denom → Nat) :
    coreQueryText bank routed (Demo.env 1000) (textBytes "{\"list_trade_info\":{\"denom_in\":\"uosmo\"}}") =
      .ok (textBytes ("[{\"denom_in\":\"uosmo\",\"denom_out\":\"uion\",\"routes\":[{\"pool_id\":2,\"token_denom\":\"uion\"}]," ++
        "\"cooldown\":60,\"max_trade_amount\":\"1000\",\"last_traded_at\":null}]")) ∧
    coreQueryText bank routed (Demo.env 1000) (textBytes "{\"list_trade_info\":{\"denom_in\":\"uosmo\",\"start_after\":\"uion\"}}") =
      .ok (textBytes "[]") := by
  have e1 : readMsg coreQuery (textBytes "{\"list_trade_info\":{\"denom_in\":\"uosmo\"}}") =
      .ok (.listTradeInfo "uosmo" none none none) := by decide +kernel
  have e2 : readMsg coreQuery (textBytes "{\"list_trade_info\":{\"denom_in\":\"uosmo\",\"start_after\":\"uion\"}}") =
      .ok (.listTradeInfo "uosmo" (some "uion") none none) := by decide +kernel
  rw [coreQueryText, coreQueryText, e1, e2, ok_bind, ok_bind]
  simp only [coreAnswer]
  constructor <;> decide +kernel

/-- Routes are listed from the bytes. -/
example (bank : Addr → Denom → Nat) : ∃ b, Texts.CoreStored decText coreVersion b routed ∧
    coreWasmQuery bank b (Demo.env 1000) (textBytes "{\"list_trade_info\":{\"denom_in\":\"uosmo\"}}") =
      .ok (textBytes ("[{\"denom_in\":\"uosmo\",\"denom_out\":\"uion\",\"routes\":[{\"pool_id\":2,\"token_denom\":\"uion\"}]," ++
        "\"cooldown\":60,\"max_trade_amount\":\"1000\",\"last_traded_at\":null}]")) ∧
    coreWasmQuery bank b (Demo.env 1000) (textBytes "{\"list_trade_info\":{\"denom_in\":\"uosmo\",\"start_after\":\"uion\"}}") =
      .ok (textBytes "[]") ∧
    coreWasmQuery bank b (Demo.env 1000) (textBytes "{\"list_labels\":{}}") = .error .generic := by
  have ht : ∀ t ∈ routeTexts, Texts.Number t.env.now := by decide
  have hs : ∀ t ∈ routeTexts, t.text.length ≤ 0xFFFF := by decide +kernel
  obtain ⟨b, _, _, h3⟩ := (C103_core_history decText_spec coreVersion (by decide)).2 _ demo_created
  obtain ⟨_, h2⟩ := h3 routeTexts (by show DenomFits _; decide +kernel) ht fun t hm m hr => coreExecute_short (hs t hm) hr
  have hn : Texts.CoreStateFits (coreTextRun Demo.s0 routeTexts).1 := C101_core_fits demo_created (by decide) ht
  rw [routeTexts_run] at h2 hn
  have key := fun text => C104_core_query decText_spec h2 ⟨Demo.s0, _, Demo.s0_fresh, rfl⟩
    ⟨by decide +kernel, by decide +kernel⟩ hn bank (Demo.env 1000) text
  refine ⟨_, h2, ?_, ?_, ?_⟩
  · rw [key _ (by decide +kernel)]
    exact (routed_answers bank).1
  · rw [key _ (by decide +kernel)]
    exact (routed_answers bank).2
  · have e : readMsg coreQuery (textBytes "{\"list_labels\":{}}") = .error .generic := by decide +kernel
    rw [coreWasmQuery, e]
    rfl

/-- **C104 (core, histories).** Made from a message of at most 65535 bytes and fed such messages, whatever they say, the
contract on bytes sends what the contract on states sends, ends with the texts of its state, and answers every query of at
most 65535 bytes as it does. -/
theorem C104_core_history {dec : Nat → String} (hd : ∀ n, Texts.IsDecimal n (dec n)) (v : ContractVersion) {env : Env}
    {text : Bytes} {d : Denom} {s : Core.State} (h : coreTextCreate env text d = .ok s) (hn : Texts.Number env.now)
    (hl : text.length ≤ 0xFFFF) (ts : List TextCall) (ht : ∀ t ∈ ts, Texts.Number t.env.now)
    (hs : ∀ t ∈ ts, t.text.length ≤ 0xFFFF) :
    ∃ b, coreWasmCreate v env text d = .ok b ∧ (coreWasmRun b ts).2 = (coreTextRun s ts).2 ∧
      Texts.CoreStored dec v (coreWasmRun b ts).1 (coreTextRun s ts).1 ∧
      ∀ bank env q, q.length ≤ 0xFFFF →
        coreWasmQuery bank (coreWasmRun b ts).1 env q = coreQueryText bank (coreTextRun s ts).1 env q := by
  obtain ⟨b, h1, h2, h3⟩ := (C103_core_history hd v hn).2 s h
  have hf : StateFits s := by
    obtain ⟨m, _, _, _, hm, hi, hrp⟩ := coreTextCreate_ok h
    have hden := (coreInstantiate_short hm).trans hl
    obtain ⟨_, _, _, _, _, _, rfl, _⟩ := Core.instantiate_eq_ok.1 hi
    obtain ⟨_, _, _, rfl, _⟩ := Core.reply_eq_ok.1 hrp
    exact ⟨hden, by simp⟩
  obtain ⟨g1, g2⟩ := h3 ts hf.1 ht fun t hm m hr => coreExecute_short (hs t hm) hr
  obtain ⟨r1, r2⟩ := core_text_fits ⟨s, [], coreTextCreate_fresh h, rfl⟩ hf ts hs
  exact ⟨b, h1, g1, g2, fun bank env q hq => C104_core_query hd g2 r1 r2 (C101_core_fits h hn ht) bank env q hq⟩

/-- The demo contract made from its text, with one route. -/
example (bank : Addr → Denom → Nat) :
    ∃ b, coreWasmCreate coreVersion (Demo.env 1000) instText "factory/core/ibcx" = .ok b ∧
      (coreWasmRun b routeTexts).2 = [] ∧
      coreWasmQuery bank (coreWasmRun b routeTexts).1 (Demo.env 1000)
        (textBytes "{\"list_trade_info\":{\"denom_in\":\"uosmo\",\"start_after\":\"uion\"}}") = .ok (textBytes "[]") := by
  obtain ⟨b, h1, h2, _, h4⟩ := C104_core_history decText_spec coreVersion demo_created (by decide) (by decide +kernel) routeTexts
    (by decide) (by decide +kernel)
  refine ⟨b, h1, ?_, ?_⟩
  · rw [h2, coreTextRun_eq]
    have e : readMsg coreExecute (textBytes ("{\"gov\":{\"update_trade_info\":{\"denom\":\"uosmo\"," ++
        "\"routes\":[{\"pool_id\":2,\"token_denom\":\"uion\"}],\"cooldown\":60,\"max_trade_amount\":\"1000\"}}}")) =
        .ok (.gov (.updateTradeInfo "uosmo" [⟨2, "uion"⟩] 60 1000)) := by decide +kernel
    simp only [routeTexts, coreReadable, e]
    rfl
  · rw [h4 bank (Demo.env 1000) _ (by decide +kernel), routeTexts_run]
    exact (routed_answers bank).2

/-- **C104 (airdrop).** On a storage that holds the texts of a reachable state, a query of at most 65535 bytes gets, byte for
byte, the answer or the error that the state gives. -/
theorem C104_airdrop_query {c : Airdrop.Crypto} {v : ContractVersion} {b : Raw Bytes} {s : Airdrop.State}
    (h : Texts.DropStored v b s) (hr : Airdrop.Reachable c s) (hc : ∀ e ∈ s.drops, (textBytes e.2.creator).length ≤ 0xFFFF)
    (hn : Texts.DropStateFits s) (reason : Airdrop.ClaimPayload → String) (env : Env) (text : Bytes)
    (hl : text.length ≤ 0xFFFF) : dropWasmQuery c reason b env text = dropQueryText c reason s env text := by
  unfold dropWasmQuery dropQueryText
  cases hm : readMsg dropQuery text with
  | error e => rfl
  | ok q =>
    obtain ⟨j, _, hj⟩ := readMsg_eq_ok.1 hm
    exact drop_answer ((drop_stored_iff s).1 h) hr hc hn reason env q (dropQuery_bounded _ _ hj) fun o a ho ha =>
      (dropQuery_short hm o a ho ha).trans hl

/-- What the airdrop contract answers after the registration and the closing. -/
theorem closed_answers (reason : Airdrop.ClaimPayload → String) :
    let s := (Airdrop.run Airdrop.Demo.crypto Airdrop.initial [Airdrop.Demo.reg, Airdrop.Demo.close]).1
    dropQueryText Airdrop.Demo.crypto reason s (Airdrop.Demo.env 14) (textBytes "{\"list_labels\":{}}") =
      .ok (textBytes "[{\"creator\":\"carol\",\"label\":\"gift\",\"airdrop_id\":0}]") ∧
    dropQueryText Airdrop.Demo.crypto reason s (Airdrop.Demo.env 14)
      (textBytes "{\"list_airdrops\":{\"option\":{\"by_creator\":{\"creator\":\"dave\"}}}}") = .ok (textBytes "[]") := by
  have e1 : readMsg dropQuery (textBytes "{\"list_labels\":{}}") = .ok (.listLabels none none none) := by decide +kernel
  have e2 : readMsg dropQuery (textBytes "{\"list_airdrops\":{\"option\":{\"by_creator\":{\"creator\":\"dave\"}}}}") =
      .ok (.listAirdrops (.byCreator "dave" none none none)) := by decide +kernel
  dsimp only
  rw [dropQueryText, dropQueryText, e1, e2, ok_bind, ok_bind]
  simp only [dropAnswer]
  constructor <;> decide +kernel

/-- Labels and airdrops are listed from the bytes. -/
example (reason : Airdrop.ClaimPayload → String) :
    ∃ b, Texts.DropStored demoVersion b (Airdrop.run Airdrop.Demo.crypto Airdrop.initial [Airdrop.Demo.reg, Airdrop.Demo.close]).1 ∧
      dropWasmQuery Airdrop.Demo.crypto reason b (Airdrop.Demo.env 14) (textBytes "{\"list_labels\":{}}") =
        .ok (textBytes "[{\"creator\":\"carol\",\"label\":\"gift\",\"airdrop_id\":0}]") ∧
      dropWasmQuery Airdrop.Demo.crypto reason b (Airdrop.Demo.env 14)
        (textBytes "{\"list_airdrops\":{\"option\":{\"by_creator\":{\"creator\":\"dave\"}}}}") = .ok (textBytes "[]") := by
  have ht : ∀ t ∈ dropTexts, Texts.Number t.env.height := by
    intro t ht
    simp only [dropTexts, List.mem_cons, List.not_mem_nil, or_false] at ht
    rcases ht with rfl | rfl | rfl <;> decide
  have hk : ∀ t ∈ dropTexts, ∀ k ∈ t.info.funds, Texts.Amount k.amount := by
    intro t ht
    simp only [dropTexts, List.mem_cons, List.not_mem_nil, or_false] at ht
    rcases ht with rfl | rfl | rfl <;> decide
  have hs : ∀ t ∈ dropTexts, (textBytes t.info.sender).length ≤ 0xFFFF := by
    intro t ht
    simp only [dropTexts, List.mem_cons, List.not_mem_nil, or_false] at ht
    rcases ht with rfl | rfl | rfl <;> decide
  obtain ⟨b, _, _, h3⟩ := (C103_airdrop_history Airdrop.Demo.crypto demoVersion (textBytes "{}")).2 _ empty_created
  obtain ⟨_, h2⟩ := h3 dropTexts ht hk hs
  have hn := C101_airdrop_fits Airdrop.Demo.crypto empty_created ht hk
  rw [dropTextRun_eq, dropTexts_read] at h2 hn
  have key := fun text => C104_airdrop_query h2 ⟨_, rfl⟩ (by decide +kernel) hn reason (Airdrop.Demo.env 14) text
  refine ⟨_, h2, ?_, ?_⟩
  · rw [key _ (by decide +kernel)]
    exact (closed_answers reason).1
  · rw [key _ (by decide +kernel)]
    exact (closed_answers reason).2

/-- **C104 (airdrop, histories).** Made from a text and fed any messages, the contract on bytes answers every query of at most
65535 bytes as the contract on states does. -/
theorem C104_airdrop_history (c : Airdrop.Crypto) (v : ContractVersion) {text : Bytes} {s : Airdrop.State}
    (h : dropInstantiateText text = .ok s) (ts : List TextCall) (ht : ∀ t ∈ ts, Texts.Number t.env.height)
    (hk : ∀ t ∈ ts, ∀ k ∈ t.info.funds, Texts.Amount k.amount) (hs : ∀ t ∈ ts, (textBytes t.info.sender).length ≤ 0xFFFF) :
    ∃ b, dropWasmInstantiate v text = .ok b ∧ (dropWasmRun c b ts).2 = (dropTextRun c s ts).2 ∧
      Texts.DropStored v (dropWasmRun c b ts).1 (dropTextRun c s ts).1 ∧
      ∀ reason env q, q.length ≤ 0xFFFF →
        dropWasmQuery c reason (dropWasmRun c b ts).1 env q = dropQueryText c reason (dropTextRun c s ts).1 env q := by
  obtain ⟨b, h1, h2, h3⟩ := (C103_airdrop_history c v text).2 s h
  obtain ⟨g1, g2⟩ := h3 ts ht hk hs
  have hfit := C101_airdrop_fits c h ht hk
  obtain ⟨rfl, -⟩ := C101_airdrop_reachable c [] h
  obtain ⟨r1, r2⟩ := drop_text_fits c ⟨[], rfl⟩ (s := Airdrop.initial) (by simp [Airdrop.initial]) ts hs
  exact ⟨b, h1, g1, g2, fun reason env q hq => C104_airdrop_query g2 r1 r2 hfit reason env q hq⟩

/-- The demo airdrop contract made from its text. -/
example (reason : Airdrop.ClaimPayload → String) :
    ∃ b, dropWasmInstantiate demoVersion (textBytes "{}") = .ok b ∧
      dropWasmQuery Airdrop.Demo.crypto reason (dropWasmRun Airdrop.Demo.crypto b dropTexts).1 (Airdrop.Demo.env 14)
        (textBytes "{\"list_labels\":{}}") = .ok (textBytes "[{\"creator\":\"carol\",\"label\":\"gift\",\"airdrop_id\":0}]") := by
  obtain ⟨b, h1, _, _, h4⟩ := C104_airdrop_history Airdrop.Demo.crypto demoVersion empty_created dropTexts
    (by
      intro t ht
      simp only [dropTexts, List.mem_cons, List.not_mem_nil, or_false] at ht
      rcases ht with rfl | rfl | rfl <;> decide)
    (by
      intro t ht
      simp only [dropTexts, List.mem_cons, List.not_mem_nil, or_false] at ht
      rcases ht with rfl | rfl | rfl <;> decide)
    (by
      intro t ht
      simp only [dropTexts, List.mem_cons, List.not_mem_nil, or_false] at ht
      rcases ht with rfl | rfl | rfl <;> decide)
  refine ⟨b, h1, ?_⟩
  rw [h4 reason (Airdrop.Demo.env 14) _ (by decide +kernel), dropTextRun_eq, dropTexts_read]
  exact (closed_answers reason).1

/-- **C104 (long names).** Names longer than 65535 bytes cannot be part of a key: asking for the routes of such a denom or the
airdrops of such a creator is an error on every storage. -/
theorem C104_long_names (bank : Addr → Denom → Nat) (c : Airdrop.Crypto) (reason : Airdrop.ClaimPayload → String)
    (b : Raw Bytes) (env : Env) (text : Bytes) :
    (∀ i o out, readMsg coreQuery text = .ok (.getTradeInfo i o) → 0xFFFF < (textBytes i).length →
      coreWasmQuery bank b env text ≠ .ok out) ∧
    (∀ i start limit order out, readMsg coreQuery text = .ok (.listTradeInfo i start limit order) →
      0xFFFF < (textBytes i).length → coreWasmQuery bank b env text ≠ .ok out) ∧
    (∀ a start limit order out, readMsg dropQuery text = .ok (.listAirdrops (.byCreator a start limit order)) →
      0xFFFF < (textBytes a).length → dropWasmQuery c reason b env text ≠ .ok out) := by
  have get : ∀ {α : Type} {c : Codec α} {x : Res α} {out}, answer c x = .ok out → ∃ a, x = .ok a := by
    intro α c x out h
    cases x with
    | error e => cases h
    | ok a => exact ⟨a, rfl⟩
  refine ⟨fun i o out hm hi h => ?_, fun i start limit order out hm hi h => ?_, fun a start limit order out hm ha h => ?_⟩
  · rw [coreWasmQuery, hm, ok_bind] at h
    obtain ⟨x, hx⟩ := get h
    have hk : (CorePlace.tradeInfo i o).slot.key = .error .panic := by
      simp only [CorePlace.slot, Slot.key]
      rw [if_neg]
      rintro ⟨_, h⟩
      have := h (textBytes i) (by simp)
      omega
    simp only [coreGetTradeInfo, coreMay, coreGet, hk] at hx
    cases hx
  · rw [coreWasmQuery, hm, ok_bind] at h
    obtain ⟨x, hx⟩ := get h
    obtain ⟨_, hp, -⟩ := bind_eq_ok.1 hx
    obtain ⟨_, -, hp⟩ := bind_eq_ok.1 hp
    have := (require_eq_ok.1 hp)
    omega
  · rw [dropWasmQuery, hm, ok_bind] at h
    obtain ⟨x, hx⟩ := get h
    obtain ⟨_, -, hx⟩ := bind_eq_ok.1 hx
    obtain ⟨y, hy, hx⟩ := bind_eq_ok.1 hx
    obtain ⟨_, hp, -⟩ := bind_eq_ok.1 hx
    obtain ⟨_, -, hp⟩ := bind_eq_ok.1 hp
    have := (require_eq_ok.1 hp)
    have : y = a := by
      unfold validate at hy
      split at hy
      · cases hy
        rfl
      · cases hy
    subst this
    omega

/-- A denom of 65536 bytes: no routes on the state, an error on every storage. -/
example (bank : Addr → Denom → Nat) (b : Raw Bytes) :
    let d := String.ofList (List.replicate 65536 'a')
    let q := coreQuery.toText (.getTradeInfo d "uosmo")
    0xFFFF < (textBytes d).length ∧ coreQueryText bank Demo.s0 (Demo.env 1000) q = .ok (textBytes "{\"trade_info\":null}") ∧
    ∀ out, coreWasmQuery bank b (Demo.env 1000) q ≠ .ok out := by
  intro d q
  have hlen : (textBytes d).length = 65536 := by
    have all : ∀ n, ((List.replicate n 'a').flatMap utf8Char).length = n := by
      intro n
      induction n with
      | zero => rfl
      | succ n ih =>
        rw [List.replicate_succ, List.flatMap_cons, List.length_append, ih]
        have : (utf8Char 'a').length = 1 := rfl
        omega
    unfold textBytes
    rw [String.toList_ofList]
    exact all _
  have hm : readMsg coreQuery q = .ok (.getTradeInfo d "uosmo") := readMsg_toText coreQuery_faithful trivial
  refine ⟨by omega, ?_, fun out => ?_⟩
  · rw [coreQueryText, hm, ok_bind]
    rfl
  · exact (C104_long_names bank Airdrop.Demo.crypto (fun _ => "") b (Demo.env 1000) q).1 d "uosmo" out hm (by omega)

/-! ## Migrations -/

/-- When a message of the given contents may migrate from one name and version to another. -/
def Migrates (force : Option Bool) (old new : ContractVersion) : Prop :=
  force = some true ∨
    old.contract = new.contract ∧ ∃ x y, VersionOk x ∧ VersionOk y ∧ old.version.toList = versionText x ∧
      new.version.toList = versionText y ∧ cmpVersion x y = .lt

theorem migrates_iff (force : Option Bool) (old new : ContractVersion) :
    (∃ w, migrate parseVersion (some old) new.contract new.version force = .ok w) ↔ Migrates force old new := by
  unfold Migrates
  by_cases hf : force = some true
  · subst hf
    simp [migrate]
  · have hf' : (force = some true) = False := by simp [hf]
    rw [hf', false_or]
    constructor
    · rintro ⟨w, h⟩
      obtain ⟨o, a, b, h1, h2, h3, h4, _⟩ := (C55_unforced_migration _ _ _ _ _ hf _).1 h
      cases h1
      obtain ⟨p1, p2⟩ := (C92_parse_iff _ _).1 h2
      obtain ⟨q1, q2⟩ := (C92_parse_iff _ _).1 h3
      exact ⟨rfl, a, b, p1, q1, p2, q2, h4⟩
    · rintro ⟨h0, a, b, p1, q1, p2, q2, h4⟩
      obtain ⟨oc, ov⟩ := old
      dsimp only at h0 p2
      subst h0
      exact ⟨_, (C55_unforced_migration _ _ _ _ _ hf _).2
        ⟨ov, a, b, rfl, (C92_parse_iff _ _).2 ⟨p1, p2⟩, (C92_parse_iff _ _).2 ⟨q1, q2⟩, h4, rfl⟩⟩

theorem core_migrate {v : ContractVersion} {b : Raw Bytes} {s : Core.State} (h : CoreRep b (coreAt v s))
    (parse : String → Option Version) (new : ContractVersion) (force : Option Bool) :
    ((∃ b', coreMigrate parse b new.contract new.version force = .ok b') ↔
      ∃ w, migrate parse (some v) new.contract new.version force = .ok w) ∧
    ∀ b', coreMigrate parse b new.contract new.version force = .ok b' → CoreRep b' (coreAt new s) := by
  obtain ⟨m', e1, h1⟩ := h.putVersion new
  have e1 : corePut b .version (.version { contract := new.contract, version := new.version }) = .ok m' := e1
  have hv : coreLoad b .version CoreCell.asVersion = .ok v := h.version (ofText_toText versionRecord_faithful trivial)
  unfold coreMigrate migrate
  split
  · simp only [hv, ok_bind, storeVersion, require]
    by_cases hn : v.contract = new.contract
    · cases hp : parse v.version with
      | none => simp [hn, Bind.bind, Except.bind]
      | some cv =>
        cases hq : parse new.version with
        | none => simp [hn, Bind.bind, Except.bind]
        | some nv =>
          by_cases hlt : cmpVersion cv nv = .lt
          · simp only [hn, hlt, if_true, ok_bind, e1]
            simp only [ne_eq, not_true_eq_false, if_false]
            refine ⟨by simp, fun b' hb => ?_⟩
            cases hb
            exact h1
          · simp [hn, hlt, Bind.bind, Except.bind]
    · simp [hn, Bind.bind, Except.bind]
  · rw [e1]
    refine ⟨by simp, fun b' hb => ?_⟩
    cases hb
    exact h1

theorem drop_migrate {v : ContractVersion} {b : Raw Bytes} {s : Airdrop.State} (h : Rep b (dropAt v s))
    (parse : String → Option Version) (new : ContractVersion) (text : Bytes) :
    ((∃ b', dropWasmMigrate parse new b text = .ok b') ↔
      ∃ force, readMsg migrateMsg text = .ok force ∧ ∃ w, migrate parse (some v) new.contract new.version force = .ok w) ∧
    ∀ b', dropWasmMigrate parse new b text = .ok b' → Rep b' (dropAt new s) := by
  obtain ⟨m', e1, h1⟩ := h.put (p := .version) trivial (.version new)
  have h1 : Rep m' (dropAt new s) := h1.congr fun q _ => by cases q <;> simp [dropAt]
  have hv : rawLoad b .version DropCell.asVersion = .ok v := by
    unfold rawLoad
    rw [h.may (p := .version) trivial DropCell.asVersion (x := some v) (mk := .version) rfl fun a e => by
      cases e
      exact ofText_toText versionRecord_faithful trivial]
    rfl
  unfold dropWasmMigrate
  cases hm : readMsg migrateMsg text with
  | error e => simp [Bind.bind, Except.bind]
  | ok force =>
    simp only [ok_bind, Except.ok.injEq, exists_eq_left']
    unfold migrate
    split
    · simp only [hv, ok_bind, storeVersion, require]
      by_cases hn : v.contract = new.contract
      · cases hp : parse v.version with
        | none => simp [hn, Bind.bind, Except.bind]
        | some cv =>
          cases hq : parse new.version with
          | none => simp [hn, Bind.bind, Except.bind]
          | some nv =>
            by_cases hlt : cmpVersion cv nv = .lt
            · simp only [hn, hlt, if_true, ok_bind, e1]
              simp only [ne_eq, not_true_eq_false, if_false]
              refine ⟨by simp, fun b' hb => ?_⟩
              cases hb
              exact h1
            · simp [hn, hlt, Bind.bind, Except.bind]
      · simp [hn, Bind.bind, Except.bind]
    · rw [e1]
      refine ⟨by simp, fun b' hb => ?_⟩
      cases hb
      exact h1

/-- **C104 (migrations).** A message given as bytes migrates the storage exactly when it can be read and either asks for force
or the new code has the same name and a greater version.  The new storage holds the same state under the new name and
version. -/
theorem C104_migration {dec : Nat → String} (hd : ∀ n, Texts.IsDecimal n (dec n)) {v : ContractVersion} (new : ContractVersion)
    (text : Bytes) :
    (∀ b (s : Core.State), Texts.CoreStored dec v b s →
      ((∃ b', coreWasmMigrate parseVersion new b text = .ok b') ↔ ∃ f, readMsg migrateMsg text = .ok f ∧ Migrates f v new) ∧
      ∀ b', coreWasmMigrate parseVersion new b text = .ok b' → Texts.CoreStored dec new b' s) ∧
    (∀ b (s : Airdrop.State), Texts.DropStored v b s →
      ((∃ b', dropWasmMigrate parseVersion new b text = .ok b') ↔ ∃ f, readMsg migrateMsg text = .ok f ∧ Migrates f v new) ∧
      ∀ b', dropWasmMigrate parseVersion new b text = .ok b' → Texts.DropStored new b' s) := by
  constructor
  · intro b s h
    have h := (core_stored_iff hd s).1 h
    unfold coreWasmMigrate
    cases hm : readMsg migrateMsg text with
    | error e => simp [Bind.bind, Except.bind]
    | ok f =>
      simp only [ok_bind, Except.ok.injEq, exists_eq_left']
      obtain ⟨h1, h2⟩ := core_migrate h parseVersion new f
      exact ⟨h1.trans (migrates_iff f v new), fun b' hb => (core_stored_iff hd s).2 (h2 b' hb)⟩
  · intro b s h
    obtain ⟨h1, h2⟩ := drop_migrate ((drop_stored_iff s).1 h) parseVersion new text
    simp only [migrates_iff] at h1
    exact ⟨h1, fun b' hb => (drop_stored_iff s).2 (h2 b' hb)⟩

/-- Version `0.2.0` may follow `0.1.0`, not the other way; force makes it so. -/
example : ∃ b, Texts.CoreStored decText coreVersion b Demo.s0 ∧
    (∃ b', coreWasmMigrate parseVersion ⟨"crates.io:ibcx-core", "0.2.0"⟩ b (textBytes "{}") = .ok b' ∧
      Texts.CoreStored decText ⟨"crates.io:ibcx-core", "0.2.0"⟩ b' Demo.s0) ∧
    (∀ b', coreWasmMigrate parseVersion ⟨"crates.io:ibcx-core", "0.0.9"⟩ b (textBytes "{}") ≠ .ok b') ∧
    (∀ b', coreWasmMigrate parseVersion ⟨"crates.io:ibcx-core", "0.2.0"⟩ b (textBytes "{\"froce\":true}") ≠ .ok b') ∧
    ∃ b', coreWasmMigrate parseVersion ⟨"crates.io:ibcx-core", "0.0.9"⟩ b (textBytes "{\"force\":true}") = .ok b' := by
  obtain ⟨b, _, h2, _⟩ := (C103_core_history decText_spec coreVersion (by decide)).2 _ demo_created
  have e1 : readMsg migrateMsg (textBytes "{}") = .ok none := by decide +kernel
  have e2 : readMsg migrateMsg (textBytes "{\"force\":true}") = .ok (some true) := by decide +kernel
  have e3 : readMsg migrateMsg (textBytes "{\"froce\":true}") = .error .generic := by decide +kernel
  have key := fun new text => (C104_migration decText_spec (v := coreVersion) new text).1 b Demo.s0 h2
  refine ⟨b, h2, ?_, ?_, ?_, ?_⟩
  · obtain ⟨h1, h3⟩ := key ⟨"crates.io:ibcx-core", "0.2.0"⟩ (textBytes "{}")
    obtain ⟨b', hb⟩ := h1.2 ⟨none, e1, (migrates_iff _ _ _).1
      ⟨some ⟨"crates.io:ibcx-core", "0.2.0"⟩, by decide +kernel⟩⟩
    exact ⟨b', hb, h3 b' hb⟩
  · intro b' hb
    obtain ⟨f, hf, hm⟩ := (key ⟨"crates.io:ibcx-core", "0.0.9"⟩ (textBytes "{}")).1.1 ⟨b', hb⟩
    cases e1.symm.trans hf
    obtain ⟨w, hw⟩ := (migrates_iff _ _ _).2 hm
    have : migrate parseVersion (some coreVersion) "crates.io:ibcx-core" "0.0.9" none = .error .generic := by decide +kernel
    cases this.symm.trans hw
  · intro b' hb
    obtain ⟨f, hf, _⟩ := (key ⟨"crates.io:ibcx-core", "0.2.0"⟩ (textBytes "{\"froce\":true}")).1.1 ⟨b', hb⟩
    cases e3.symm.trans hf
  · exact (key ⟨"crates.io:ibcx-core", "0.0.9"⟩ (textBytes "{\"force\":true}")).1.2 ⟨some true, e2, Or.inl rfl⟩

end Ibcx.Props
