import Verif.Storage.ListLemmas
import Verif.Airdrop.Inv
import Verif.Props.AirdropDemo
import Verif.Props.Demo
/-!
# C93: the contracts' stores do not collide in the byte storage

Every read and every listing on the raw bytes gives what the abstract state says.
-/

namespace Ibcx.Props
open Ibcx Ibcx.Iface Ibcx.Storage

/-- In a reachable state of the airdrop contract all ids fit `u64`. -/
theorem drop_ids {c : Airdrop.Crypto} {s : Airdrop.State} (hr : Airdrop.Reachable c s) :
    s.latest < 2 ^ 64 ∧ ∀ e ∈ s.claims, e.1.1 < s.latest := by
  obtain ⟨calls, rfl⟩ := hr
  have hf : Airdrop.initial.latest < 2 ^ 64 ∧ ∀ e ∈ Airdrop.initial.claims, e.1.1 < Airdrop.initial.latest := by
    simp [Airdrop.initial]
  have hi := Airdrop.inv_initial
  revert hf hi
  generalize Airdrop.initial = s
  induction calls generalizing s with
  | nil => exact fun h _ => h
  | cons call calls ih =>
    intro hf hi
    suffices hnext : (Airdrop.step c s call).1.latest < 2 ^ 64 ∧
        ∀ e ∈ (Airdrop.step c s call).1.claims, e.1.1 < (Airdrop.step c s call).1.latest from ih _ hnext (hi.step call)
    obtain ⟨f1, f2⟩ := hf
    rcases Airdrop.step_cases c s call with ⟨e, _⟩ | ⟨s', ms, e, _, h⟩
    · rw [e]; exact ⟨f1, f2⟩
    · rw [e]
      generalize call.msg = msg at h
      cases h with
      | register p a new free max => exact ⟨max, fun x hx => Nat.lt_succ_of_lt (f2 x hx)⟩
      | fund id m a extra ht ha hc ho hf hx max => exact ⟨f1, f2⟩
      | close id m a ht ha hc ho hle => exact ⟨f1, f2⟩
      | claim p n a hv ht ha ho hk hp max hle =>
        refine ⟨f1, ?_⟩
        intro x hx
        have hx' : x.1 ∈ (s.claims.set (n, Spec.claimKey call.info p) (Spec.claimAmount p)).map (·.1) :=
          List.mem_map.2 ⟨x, hx, rfl⟩
        rw [KV.keys_set] at hx'
        have hn : n < s.latest := by
          by_contra hge
          have := (hi.ids n).2 (by omega)
          rw [ha] at this
          cases this
        split at hx'
        · obtain ⟨y, hy, e⟩ := List.mem_map.1 hx'
          rw [← e]
          exact f2 y hy
        · rcases List.mem_append.1 hx' with h1 | h1
          · obtain ⟨y, hy, e⟩ := List.mem_map.1 h1
            rw [← e]
            exact f2 y hy
          · rw [List.mem_singleton.1 h1]
            exact hn

/-- Reachable states fit the storage when the creators' addresses do. -/
theorem drop_fits {c : Airdrop.Crypto} {s : Airdrop.State} (hr : Airdrop.Reachable c s)
    (hc : ∀ e ∈ s.drops, (textBytes e.2.creator).length ≤ 0xFFFF) : DropFits s := by
  obtain ⟨n1, n2, n3⟩ := drops_nodup c hr
  obtain ⟨l1, l2⟩ := drop_ids hr
  refine ⟨?_, fun e he => Nat.lt_trans (l2 e he) l1, hc, n1, n2, n3⟩
  intro e he
  have := KV.get_of_mem n1 he
  have hi := (hr.inv.ids e.1).not
  rw [this] at hi
  have := hi.1 (by simp)
  omega

/-- The stored version of the examples. -/
def demoVersion : ContractVersion := { contract := "crates.io:ibcx-airdrop", version := "0.1.0" }

open Ibcx.Airdrop in
/-- A reachable state with two airdrops of one creator, one of each type, a label and two claims. -/
def stored : Airdrop.State :=
  (run Demo.crypto initial
    [Demo.reg, Demo.fund, Demo.claimAlice, Demo.regBearer, Demo.claimSalt]).1

/-- A reachable state of the core contract with a trade route. -/
def routed : Core.State :=
  (Core.run Demo.s0
    [⟨Demo.env 1000, ⟨"gov", []⟩, .gov (.updateTradeInfo "uosmo" [⟨2, "uion"⟩] 60 1000)⟩]).1

/-- **C93 (places).** No two different places of a contract have the same key, and every place that fits has one. -/
theorem C93_places : (∀ p : CorePlace, p.Fits → p.slot.key = .ok p.slot.bytes) ∧
    (∀ p q : CorePlace, p.Fits → q.Fits → p.slot.key = q.slot.key → p = q) ∧
    (∀ p : DropPlace, p.Fits → p.slot.key = .ok p.slot.bytes) ∧
    ∀ p q : DropPlace, p.Fits → q.Fits → p.slot.key = q.slot.key → p = q := by
  refine ⟨fun p hp => (CorePlace.used hp).key, ?_, fun p hp => (DropPlace.used hp).key, ?_⟩
  · intro p q hp hq h
    rw [(CorePlace.used hp).key, (CorePlace.used hq).key] at h
    exact CorePlace.bytes_inj hp hq (Except.ok.inj h)
  · intro p q hp hq h
    rw [(DropPlace.used hp).key, (DropPlace.used hq).key] at h
    exact DropPlace.bytes_inj hp hq (Except.ok.inj h)

/-- Two places of the core contract and their bytes. -/
example : (CorePlace.tradeInfo "uosmo" "uion").Fits ∧
    (CorePlace.tradeInfo "uosmo" "uion").slot.key ≠ (CorePlace.tradeInfo "uosmou" "ion").slot.key ∧
    CorePlace.totalSupply.slot.key = .ok (textBytes "total_supply") := by
  refine ⟨?_, by decide +kernel, by decide +kernel⟩
  show (textBytes "uosmo").length ≤ 0xFFFF
  decide

/-- **C93 (core, reads).** Reading a place of the core contract from the raw storage gives the value of the state. -/
theorem C93_core_reads (v : ContractVersion) {s : Core.State} (hf : ∀ e ∈ s.tradeInfos, (textBytes e.1.1).length ≤ 0xFFFF)
    (p : CorePlace) (hp : p.Fits) : (coreRaw v s).get p.slot.bytes = coreAt v s p := by
  rw [← core_places_get]
  refine KV.get_map_key (f := fun p : CorePlace => p.slot.bytes) ?_
  intro x hx h
  obtain ⟨e, he, rfl⟩ := List.mem_map.1 hx
  exact CorePlace.bytes_inj (core_place_fits hf e he) hp h

/-- The supply and a trade route at their places. -/
example : (∀ e ∈ routed.tradeInfos, (textBytes e.1.1).length ≤ 0xFFFF) ∧
    (coreRaw demoVersion routed).get (textBytes "total_supply") = some (.totalSupply 0) ∧
    (coreRaw demoVersion routed).get (CorePlace.tradeInfo "uosmo" "uion").slot.bytes =
      some (.tradeInfo ⟨[⟨2, "uion"⟩], 60, 1000, none⟩) := by
  refine ⟨by decide +kernel, by decide +kernel, by decide +kernel⟩

/-- **C93 (core, listing).** Listing the trade routes of a denom from the raw storage, with any start, limit and order,
gives the listing of the state. -/
theorem C93_core_listing (v : ContractVersion) {s : Core.State} (hr : Core.Reachable s)
    (hf : ∀ e ∈ s.tradeInfos, (textBytes e.1.1).length ≤ 0xFFFF) {d : Denom} (hd : (textBytes d).length ≤ 0xFFFF)
    (start : Option Denom) (limit : Option Nat) (order : Option RangeOrder) :
    rawListTradeInfo (coreRaw v s) d start limit order =
      (listTradeInfo s d start limit order).map (List.map (fun e => (textBytes e.1, .tradeInfo e.2))) := by
  rw [coreRaw_eq]
  refine page_raw ?_ (fun a _ b _ => textBytes_lt a b) (fun k _ a _ => ⟨textBytes_lt k a, textBytes_lt a k⟩)
  intro min max order
  rw [range_scan (arity := coreArity) ?_ (core_slots_nodup (infos_nodup hr)) (by decide) rfl ?_
    (.inl (prefix_end_text _ _)), core_under]
  · intro e he
    obtain ⟨x, hx, rfl⟩ := List.mem_map.1 he
    exact CorePlace.used (core_place_fits hf x hx)
  · intro p hp
    rw [List.mem_singleton.1 hp]
    exact hd

/-- One route from uosmo. -/
example : Core.Reachable routed ∧ (∀ e ∈ routed.tradeInfos, (textBytes e.1.1).length ≤ 0xFFFF) ∧
    (rawListTradeInfo (coreRaw demoVersion routed) "uosmo" none none none).map (List.map (·.1)) = .ok [textBytes "uion"] :=
  ⟨⟨Demo.s0, _, Demo.s0_fresh, rfl⟩, by decide +kernel, by decide +kernel⟩

/-- **C93 (airdrop, reads).** Reading a place of the airdrop contract from the raw storage gives the value of the state;
an index entry is there exactly for the airdrops with this type or creator. -/
theorem C93_airdrop_reads (v : ContractVersion) {c : Airdrop.Crypto} {s : Airdrop.State} (hr : Airdrop.Reachable c s)
    (hc : ∀ e ∈ s.drops, (textBytes e.2.creator).length ≤ 0xFFFF) (p : DropPlace) (hp : p.Fits) :
    (dropRaw v s).get p.slot.bytes = dropAt v s p := by
  have hf := drop_fits hr hc
  rw [← drop_places_get v hf.drops_nodup]
  refine KV.get_map_key (f := fun p : DropPlace => p.slot.bytes) ?_
  intro x hx h
  obtain ⟨e, he, rfl⟩ := List.mem_map.1 hx
  exact DropPlace.bytes_inj (drop_place_fits hf e he) hp h

/-- The bearer's claim at its place. -/
example : Airdrop.Reachable Airdrop.Demo.crypto stored ∧
    (∀ e ∈ stored.drops, (textBytes e.2.creator).length ≤ 0xFFFF) ∧
    (dropRaw demoVersion stored).get (0 :: 10 :: textBytes "claim_logs" ++ [0, 8, 0, 0, 0, 0, 0, 0, 0, 1] ++ textBytes "salt") =
      some (.claim 7) :=
  ⟨⟨_, rfl⟩, by decide +kernel, by decide +kernel⟩

/-- Loading of the airdrops of a page of index entries. -/
theorem load_page (v : ContractVersion) {c : Airdrop.Crypto} {s : Airdrop.State} (hr : Airdrop.Reachable c s)
    (hc : ∀ e ∈ s.drops, (textBytes e.2.creator).length ≤ 0xFFFF) {es : List (Nat × Airdrop.Drop)} (hs : ∀ e ∈ es, e ∈ s.drops) :
    (es.map (fun e => (u64Bytes e.1, DropVal.pkLen 8))).mapM (loadIndexed DropVal.asPkLen (dropRaw v s)) =
      .ok (es.map (fun e => (u64Bytes e.1, DropVal.drop e.2))) := by
  have hf := drop_fits hr hc
  induction es with
  | nil => rfl
  | cons e es ih =>
    have ih' := ih (fun x hx => hs x (by simp [hx]))
    have he := hs e (by simp)
    have h1 := C93_airdrop_reads v hr hc (.drop e.1) (hf.ids e he)
    rw [dropAt, KV.get_of_mem hf.drops_nodup he] at h1
    have h2 : loadIndexed DropVal.asPkLen (dropRaw v s) (u64Bytes e.1, DropVal.pkLen 8) = .ok (u64Bytes e.1, DropVal.drop e.2) := by
      have h0 : (u64Bytes e.1).length = 8 := bigEndian_length 8 e.1
      simp only [loadIndexed, DropVal.asPkLen, h0, Nat.le_refl, if_true, Nat.sub_self, List.drop_zero]
      have h3 : KV.get (dropRaw v s) (prefixBytes "airdrops" [] ++ u64Bytes e.1) = some (.drop e.2) := h1
      rw [h3]
    rw [List.map_cons, List.mapM_cons, h2, ih']
    rfl

/-- The numbers of the airdrops are ordered like their bytes. -/
theorem ids_lt {s : Airdrop.State} (hf : DropFits s) :
    ∀ a ∈ s.drops.map (·.1), ∀ b ∈ s.drops.map (·.1), bytesLt (u64Bytes a) (u64Bytes b) = natLt a b := by
  intro a ha b hb
  obtain ⟨x, hx, rfl⟩ := List.mem_map.1 ha
  obtain ⟨y, hy, rfl⟩ := List.mem_map.1 hb
  exact u64Bytes_lt (hf.ids x hx) (hf.ids y hy)

/-- A page of index entries. -/
theorem index_page (v : ContractVersion) {s : Airdrop.State} (hf : DropFits s) (ns : String) (text : String)
    (sel : Nat × Airdrop.Drop → Bool) {start : Option Nat} (limit : Option Nat) (order : Option RangeOrder)
    (hs : ∀ k, start = some k → k < 2 ^ 64) (h1 : (textBytes ns).length < 256) (h2 : dropArity ns = 1)
    (h3 : (textBytes text).length ≤ 0xFFFF)
    (h4 : under ns [textBytes text] (dropSlots v s) =
      (s.drops.filter sel).map (fun e => (u64Bytes e.1, DropVal.pkLen 8))) :
    rawPage (dropRaw v s) (prefixBytes ns [textBytes text]) (start.map u64Bytes) limit order =
      (page natLt (s.drops.filter sel) start limit order).map (List.map (fun e => (u64Bytes e.1, .pkLen 8))) := by
  have sub : ∀ a, a ∈ (s.drops.filter sel).map (·.1) → a ∈ s.drops.map (·.1) := by
    intro a ha
    obtain ⟨x, hx, rfl⟩ := List.mem_map.1 ha
    exact List.mem_map.2 ⟨x, (List.mem_filter.1 hx).1, rfl⟩
  have hp := page_raw (lt := natLt) (f := u64Bytes) (g := fun _ : Airdrop.Drop => DropVal.pkLen 8) (m := s.drops.filter sel)
    (st := dropSlots v s) (p := prefixBytes ns [textBytes text]) (start := start) (limit := limit) (order := order)
    (by
      intro min max order
      rw [range_scan (drop_slots_used hf) (drop_slots_nodup hf) h1 (by rw [h2]; rfl)
        (fun p hp => by rw [List.mem_singleton.1 hp]; exact h3) (.inl (prefix_end_text _ _)), h4])
    (fun a ha b hb => ids_lt hf a (sub a ha) b (sub b hb))
    (by
      intro k hk a ha
      obtain ⟨x, hx, rfl⟩ := List.mem_map.1 (sub a ha)
      exact ⟨u64Bytes_lt (hs k hk) (hf.ids x hx), u64Bytes_lt (hf.ids x hx) (hs k hk)⟩)
  rw [← dropRaw_eq] at hp
  exact hp

/-- **C93 (airdrop, listings).** The listings of airdrops by id, by type and by creator, of the labels and of the claims
of an airdrop, read from the raw storage with any start, limit and order, give the listings of the state; this includes
the secondary indexes and airdrops whose id ends with the byte 255. -/
theorem C93_airdrop_listings (v : ContractVersion) {c : Airdrop.Crypto} {s : Airdrop.State} (hr : Airdrop.Reachable c s)
    (hc : ∀ e ∈ s.drops, (textBytes e.2.creator).length ≤ 0xFFFF) (limit : Option Nat) (order : Option RangeOrder) :
    (∀ start : Option Nat, (∀ k, start = some k → k < 2 ^ 64) →
      rawListById (dropRaw v s) start limit order =
        (Airdrop.listById s start limit order).map (List.map (fun e => (u64Bytes e.1, .drop e.2))) ∧
      (∀ typ, rawListByType DropVal.asPkLen (dropRaw v s) typ start limit order =
        (Airdrop.listByType s typ start limit order).map (List.map (fun e => (u64Bytes e.1, .drop e.2)))) ∧
      ∀ env creator, env.validAddr creator = true → (textBytes creator).length ≤ 0xFFFF →
        rawListByCreator DropVal.asPkLen (dropRaw v s) creator start limit order =
          (Airdrop.listByCreator s env creator start limit order).map (List.map (fun e => (u64Bytes e.1, .drop e.2)))) ∧
    (∀ start : Option String, rawListLabels (dropRaw v s) start limit order =
      (page strLt s.labels start limit order).map (List.map (fun e => (textBytes e.1, .label e.2)))) ∧
    ∀ (start : Option String) (id : Airdrop.DropId) (n : Nat) (a : Airdrop.Drop), Airdrop.loadAirdrop s id = .ok (n, a) →
      rawListClaims (dropRaw v s) n start limit order =
        (Airdrop.listClaims s id start limit order).map (List.map (fun e => (textBytes e.1, .claim e.2))) := by
  have hf := drop_fits hr hc
  have scan : ∀ (ns : String) (parts : List Bytes), (textBytes ns).length < 256 → parts.length = dropArity ns →
      (∀ p ∈ parts, p.length ≤ 0xFFFF) → Clean (dropSlots v s) ns parts → ∀ min max order,
      rangeWithPrefix (rawOf (dropSlots v s)) (prefixBytes ns parts) min max order =
        range bytesLt (under ns parts (dropSlots v s)) min max order :=
    fun ns parts h1 h2 h3 h4 => range_scan (drop_slots_used hf) (drop_slots_nodup hf) h1 h2 h3 h4
  have numlt := ids_lt hf
  have indexed : ∀ (ns : String) (text : String) (sel : Nat × Airdrop.Drop → Bool) (start : Option Nat),
      (∀ k, start = some k → k < 2 ^ 64) → (textBytes ns).length < 256 → dropArity ns = 1 → (textBytes text).length ≤ 0xFFFF →
      under ns [textBytes text] (dropSlots v s) = (s.drops.filter sel).map (fun e => (u64Bytes e.1, DropVal.pkLen 8)) →
      (rawPage (dropRaw v s) (prefixBytes ns [textBytes text]) (start.map u64Bytes) limit order >>=
        fun es => es.mapM (loadIndexed DropVal.asPkLen (dropRaw v s))) =
        (page natLt (s.drops.filter sel) start limit order).map (List.map (fun e => (u64Bytes e.1, .drop e.2))) := by
    intro ns text sel start hs h1 h2 h3 h4
    rw [index_page v hf ns text sel limit order hs h1 h2 h3 h4]
    cases hx : page natLt (s.drops.filter sel) start limit order with
    | error e => rfl
    | ok es =>
      simp only [Except.map, Bind.bind, Except.bind]
      exact load_page v hr hc (fun e he => (List.mem_filter.1 (page_sub hx e he)).1)
  refine ⟨?_, ?_, ?_⟩
  · intro start hs
    refine ⟨?_, ?_, ?_⟩
    · unfold rawListById Airdrop.listById
      rw [dropRaw_eq]
      refine page_raw ?_ numlt ?_
      · intro min max order
        rw [scan "airdrops" [] (by decide) rfl (by simp) (.inl (prefix_end_name _ (by decide))), drop_under_drops]
      · intro k hk a ha
        obtain ⟨x, hx, rfl⟩ := List.mem_map.1 ha
        exact ⟨u64Bytes_lt (hs k hk) (hf.ids x hx), u64Bytes_lt (hf.ids x hx) (hs k hk)⟩
    · intro typ
      exact indexed "airdrops__by_type" (typeText typ) (fun e => e.2.typeOf = typ) start hs (by decide) rfl
        (by cases typ <;> decide) (drop_under_type v s typ)
    · intro env creator hv hl
      have := indexed "airdrops__by_creator" creator (fun e => e.2.creator = creator) start hs (by decide) rfl hl
        (drop_under_creator v s creator)
      have hval : validate env creator = .ok creator := by simp [validate, hv]
      have e : Airdrop.listByCreator s env creator start limit order =
          page natLt (s.drops.filter (fun e => e.2.creator = creator)) start limit order := by
        simp only [Airdrop.listByCreator, hval, page, Bind.bind, Except.bind]
        cases rangeOption (K := Nat) start limit order <;> rfl
      rw [e, ← this]
      rfl
  · intro start
    unfold rawListLabels
    rw [dropRaw_eq]
    refine page_raw ?_ (fun a _ b _ => textBytes_lt a b) (fun k _ a _ => ⟨textBytes_lt k a, textBytes_lt a k⟩)
    intro min max order
    rw [scan "labels" [] (by decide) rfl (by simp) (.inl (prefix_end_name _ (by decide))), drop_under_labels]
  · intro start id n a hl
    have hn : n < 2 ^ 64 := by
      obtain ⟨_, ha⟩ := Airdrop.loadAirdrop_eq_ok.1 hl
      exact hf.ids _ (KV.mem_of_get ha)
    have e : Airdrop.listClaims s id start limit order =
        page strLt ((s.claims.filter (fun e => e.1.1 = n)).map (fun e => (e.1.2, e.2))) start limit order := by
      simp only [Airdrop.listClaims, hl]
      rfl
    rw [e]
    unfold rawListClaims
    rw [dropRaw_eq]
    refine page_raw ?_ (fun a _ b _ => textBytes_lt a b) (fun k _ a _ => ⟨textBytes_lt k a, textBytes_lt a k⟩)
    intro min max order
    rw [scan "claim_logs" _ (by decide) rfl (fun p hp => by
      rw [List.mem_singleton.1 hp, u64Bytes, bigEndian_length]; decide) (claims_clean v s n), drop_under_claims v hf hn]

/-! ### Examples -/

/-- The hypotheses of the theorems hold for the stored airdrops. -/
example : Airdrop.Reachable Airdrop.Demo.crypto stored ∧
    (∀ e ∈ stored.drops, (textBytes e.2.creator).length ≤ 0xFFFF) ∧ stored.drops.length = 2 ∧ stored.claims.length = 2 := by
  refine ⟨⟨_, rfl⟩, by decide +kernel, by decide +kernel, by decide +kernel⟩

set_option synthInstance.maxSize 1000 in
/-- Its raw storage: the keys of both airdrops in the index by creator, and the claim of the second one. -/
example : (dropRaw demoVersion stored).map (·.1) =
    [textBytes "contract_info", textBytes "latest_airdrop",
      0 :: 8 :: textBytes "airdrops" ++ [0, 0, 0, 0, 0, 0, 0, 0], 0 :: 8 :: textBytes "airdrops" ++ [0, 0, 0, 0, 0, 0, 0, 1],
      0 :: 17 :: textBytes "airdrops__by_type" ++ [0, 4] ++ textBytes "open" ++ [0, 0, 0, 0, 0, 0, 0, 0],
      0 :: 17 :: textBytes "airdrops__by_type" ++ [0, 6] ++ textBytes "bearer" ++ [0, 0, 0, 0, 0, 0, 0, 1],
      0 :: 20 :: textBytes "airdrops__by_creator" ++ [0, 5] ++ textBytes "carol" ++ [0, 0, 0, 0, 0, 0, 0, 0],
      0 :: 20 :: textBytes "airdrops__by_creator" ++ [0, 5] ++ textBytes "carol" ++ [0, 0, 0, 0, 0, 0, 0, 1],
      0 :: 6 :: textBytes "labels" ++ textBytes "carol/gift",
      0 :: 10 :: textBytes "claim_logs" ++ [0, 8, 0, 0, 0, 0, 0, 0, 0, 0] ++ textBytes "alice",
      0 :: 10 :: textBytes "claim_logs" ++ [0, 8, 0, 0, 0, 0, 0, 0, 0, 1] ++ textBytes "salt"] := by
  decide +kernel

/-- Listing by creator, backwards, and listing the claims of the second airdrop. -/
example : (rawListByCreator DropVal.asPkLen (dropRaw demoVersion stored) "carol" none none (some .desc)).map (List.map (·.1)) =
      .ok [[0, 0, 0, 0, 0, 0, 0, 1], [0, 0, 0, 0, 0, 0, 0, 0]] ∧
    rawListClaims (dropRaw demoVersion stored) 1 none none none = .ok [(textBytes "salt", .claim 7)] := by
  decide +kernel

/-- The airdrop with id 255: the end of the scan is the id 256, and its claims are not listed. -/
example : rawListClaims (dropRaw demoVersion
      { latest := 257, drops := [], labels := [], claims := [((256, "a"), 1), ((255, "z"), 2), ((254, "m"), 3)] })
      255 none none none = .ok [(textBytes "z", .claim 2)] ∧
    increment (prefixBytes "claim_logs" [u64Bytes 255]) = prefixBytes "claim_logs" [u64Bytes 256] := by
  decide +kernel

/-- The hypotheses hold for the state with a route, and the route is listed from the raw storage. -/
example : Core.Reachable routed ∧ (∀ e ∈ routed.tradeInfos, (textBytes e.1.1).length ≤ 0xFFFF) ∧
    (rawListTradeInfo (coreRaw demoVersion routed) "uosmo" none none none).map (List.map (·.1)) = .ok [textBytes "uion"] ∧
    (coreRaw demoVersion routed).get (textBytes "total_supply") = some (.totalSupply 0) := by
  refine ⟨⟨Demo.s0, _, Demo.s0_fresh, rfl⟩, by decide +kernel, by decide +kernel, by decide +kernel⟩

end Ibcx.Props
