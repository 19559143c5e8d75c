import Verif.Storage.PlaceLemmas
/-!
# Lemmas about listings on the raw storage

Not part of the model.
-/

namespace Ibcx.Storage
open Ibcx Ibcx.Iface

theorem range_val {K V W : Type} {lt : K → K → Bool} (g : V → W) (m : KV K V) (min max : Option K) (order : RangeOrder) :
    range lt (m.map (fun e => (e.1, g e.2))) min max order = (range lt m min max order).map (fun e => (e.1, g e.2)) := by
  have ins : ∀ (e : K × V) (es : List (K × V)),
      insertKey lt (e.1, g e.2) (es.map (fun e => (e.1, g e.2))) = (insertKey lt e es).map (fun e => (e.1, g e.2)) := by
    intro e es
    induction es with
    | nil => rfl
    | cons x xs ih =>
      simp only [List.map_cons, insertKey]
      split
      · rfl
      · rw [ih]; rfl
  have srt : sortKeys lt (m.map (fun e => (e.1, g e.2))) = (sortKeys lt m).map (fun e => (e.1, g e.2)) := by
    induction m with
    | nil => rfl
    | cons e es ih =>
      simp only [List.map_cons, sortKeys]
      rw [ih]
      exact ins e _
  have asc : (sortKeys lt (m.map (fun e => (e.1, g e.2)))).filter (fun e => inBounds lt min max e.1) =
      ((sortKeys lt m).filter (fun e => inBounds lt min max e.1)).map (fun e => (e.1, g e.2)) := by
    rw [srt, List.filter_map]
    rfl
  cases order with
  | asc => exact asc
  | desc => simp only [range, asc, List.map_reverse]

/-- A page of the raw storage under a prefix is the page of the store kept there. -/
theorem page_raw {K V W : Type} {lt : K → K → Bool} {f : K → Bytes} {g : W → V} {m : KV K W} {st : List (Slot × V)}
    {p : Bytes} {start : Option K} {limit : Option Nat} {order : Option RangeOrder}
    (hscan : ∀ min max order, rangeWithPrefix (rawOf st) p min max order =
      range bytesLt (m.map (fun e => (f e.1, g e.2))) min max order)
    (hf : ∀ a ∈ m.map (·.1), ∀ b ∈ m.map (·.1), bytesLt (f a) (f b) = lt a b)
    (hs : ∀ k, start = some k → ∀ a ∈ m.map (·.1), bytesLt (f k) (f a) = lt k a ∧ bytesLt (f a) (f k) = lt a k) :
    rawPage (rawOf st) p (start.map f) limit order =
      (page lt m start limit order).map (List.map (fun e => (f e.1, g e.2))) := by
  have key : ∀ (min max : Option K) (o : RangeOrder) (n : Nat),
      (∀ k, min = some k → ∀ a ∈ m.map (·.1), bytesLt (f k) (f a) = lt k a) →
      (∀ k, max = some k → ∀ a ∈ m.map (·.1), bytesLt (f a) (f k) = lt a k) →
      (rangeWithPrefix (rawOf st) p (min.map f) (max.map f) o).take n =
        ((range lt m min max o).take n).map (fun e => (f e.1, g e.2)) := by
    intro min max o n h1 h2
    rw [hscan]
    have e1 : m.map (fun e => (f e.1, g e.2)) = (m.map (fun e => (f e.1, e.2))).map (fun e => (e.1, g e.2)) := by
      rw [List.map_map]; rfl
    rw [e1, range_val, range_map f hf h1 h2, List.map_map, ← List.map_take]
    rfl
  unfold rawPage page rangeOption
  cases hl : getAndCheckLimit limit MAX_LIMIT DEFAULT_LIMIT with
  | error e => rfl
  | ok l =>
    simp only [Bind.bind, Except.bind, Except.map]
    cases ho : order.getD .asc with
    | asc =>
      simp only []
      rw [show (none : Option Bytes) = (none : Option K).map f from rfl, key start none _ _ (fun k hk a ha => (hs k hk a ha).1) (by simp)]
    | desc =>
      simp only []
      rw [show (none : Option Bytes) = (none : Option K).map f from rfl, key none start _ _ (by simp) (fun k hk a ha => (hs k hk a ha).2)]

/-- A prefix of a map with one text part ends with a byte below 255. -/
theorem prefix_end_text (ns : String) (d : String) : ∃ h c, prefixBytes ns [textBytes d] = h ++ [c] ∧ c ≠ 255 := by
  rcases List.eq_nil_or_concat (textBytes d) with hd | ⟨h, c, hd⟩
  · refine ⟨lenPrefixed (textBytes ns) ++ [0], 0, ?_, by decide⟩
    simp [prefixBytes, lenPrefixed, hd]
  · have hc := textBytes_lt_255 d c (by rw [hd]; simp)
    refine ⟨lenPrefixed (textBytes ns) ++ ((textBytes d).length / 256 :: (textBytes d).length % 256 :: h), c, ?_, by omega⟩
    simp only [prefixBytes, List.flatMap_cons, List.flatMap_nil, List.append_nil, lenPrefixed, List.append_assoc,
      List.cons_append]
    rw [← List.concat_eq_append, ← hd]

/-- The prefix of a map without parts ends with a byte below 255. -/
theorem prefix_end_name (ns : String) (hn : textBytes ns ≠ []) : ∃ h c, prefixBytes ns [] = h ++ [c] ∧ c ≠ 255 := by
  rcases List.eq_nil_or_concat (textBytes ns) with hd | ⟨h, c, hd⟩
  · exact absurd hd hn
  · have hc := textBytes_lt_255 ns c (by rw [hd]; simp)
    refine ⟨(textBytes ns).length / 256 :: (textBytes ns).length % 256 :: h, c, ?_, by omega⟩
    simp only [prefixBytes, List.flatMap_nil, List.append_nil, lenPrefixed, List.cons_append]
    rw [← List.concat_eq_append, ← hd]

theorem u64Bytes_lt {a b : Nat} (ha : a < 2 ^ 64) (hb : b < 2 ^ 64) : bytesLt (u64Bytes a) (u64Bytes b) = natLt a b := by
  have e : (2 : Nat) ^ 64 = 256 ^ 8 := by decide
  rw [e] at ha hb
  exact bigEndian_lt 8 ha hb

theorem under_append {V : Type} (ns : String) (parts : List Bytes) (a b : List (Slot × V)) :
    under ns parts (a ++ b) = under ns parts a ++ under ns parts b := by
  simp only [under, List.filterMap_append]

theorem under_nil {V : Type} {ns : String} {parts : List Bytes} {a : List (Slot × V)}
    (h : ∀ e ∈ a, ∀ ps l, e.1 ≠ Slot.entry ns ps l) : under ns parts a = [] := by
  unfold under
  rw [List.filterMap_eq_nil_iff]
  intro e he
  have := h e he
  revert this
  rcases e with ⟨_ | ⟨n, ps, l⟩, w⟩
  · intro _; rfl
  · intro hh
    have : ¬ (n = ns ∧ ps = parts) := fun ⟨h1, h2⟩ => hh ps l (by rw [h1])
    simp [this]

/-! ### Core -/

/-- The stored places as slots. -/
def coreSlots (v : ContractVersion) (s : Core.State) : List (Slot × CoreVal) :=
  (corePlaces v s).map (fun e => (e.1.slot, e.2))

theorem coreRaw_eq (v : ContractVersion) (s : Core.State) : coreRaw v s = rawOf (coreSlots v s) := by
  simp [coreRaw, rawOf, coreSlots, Function.comp_def]

/-- The first parts of the stored pairs fit their length prefix. -/
def CoreFits (s : Core.State) : Prop := ∀ e ∈ s.tradeInfos, (textBytes e.1.1).length ≤ 0xFFFF

theorem core_place_fits {v : ContractVersion} {s : Core.State} (hf : CoreFits s) : ∀ e ∈ corePlaces v s, e.1.Fits := by
  intro e he
  simp only [corePlaces, List.mem_append, List.mem_cons, List.mem_map, List.not_mem_nil, or_false] at he
  rcases he with (((he | ⟨_, _, rfl⟩) | ⟨_, _, rfl⟩) | ⟨_, _, rfl⟩) | ⟨x, hx, rfl⟩
  · rcases he with rfl | rfl | rfl | rfl | rfl <;> trivial
  · trivial
  · trivial
  · trivial
  · exact hf x hx

theorem core_places_nodup {v : ContractVersion} {s : Core.State} (hn : (s.tradeInfos.map (·.1)).Nodup) :
    ((corePlaces v s).map (·.1)).Nodup := by
  have hm : (s.tradeInfos.map (fun e => CorePlace.tradeInfo e.1.1 e.1.2)).Nodup := by
    have := List.Nodup.map (f := fun k : Denom × Denom => CorePlace.tradeInfo k.1 k.2) (by
      rintro ⟨a, b⟩ ⟨c, d⟩ h
      simpa using h) hn
    rw [List.map_map] at this
    exact this
  unfold corePlaces
  simp only [List.map_append, List.map_map, Function.comp_def, List.map_cons, List.map_nil]
  cases s.pendingGov <;> cases s.rebalance <;> cases s.reserveUnits <;>
    simp [hm]

theorem core_slots_nodup {v : ContractVersion} {s : Core.State} (hn : (s.tradeInfos.map (·.1)).Nodup) :
    ((coreSlots v s).map (·.1)).Nodup := by
  have := List.Nodup.map (f := CorePlace.slot) (fun a b => CorePlace.slot_inj) (core_places_nodup (v := v) hn)
  simpa [coreSlots, List.map_map, Function.comp_def] using this

theorem core_under (v : ContractVersion) (s : Core.State) (d : Denom) :
    under "trade_infos" [textBytes d] (coreSlots v s) =
      ((s.tradeInfos.filter (fun e => e.1.1 = d)).map (fun e => (e.1.2, e.2))).map
        (fun e => (textBytes e.1, CoreVal.tradeInfo e.2)) := by
  have hb : ∀ l : List ((Denom × Denom) × Core.TradeInfo), under "trade_infos" [textBytes d]
      (l.map (fun e => ((CorePlace.tradeInfo e.1.1 e.1.2).slot, CoreVal.tradeInfo e.2))) =
      ((l.filter (fun e => e.1.1 = d)).map (fun e => (e.1.2, e.2))).map (fun e => (textBytes e.1, CoreVal.tradeInfo e.2)) := by
    intro l
    induction l with
    | nil => rfl
    | cons e l ih =>
      simp only [List.map_cons, under, List.filterMap_cons, CorePlace.slot] at ih ⊢
      by_cases h : e.1.1 = d
      · simp [h, ih]
      · have : textBytes e.1.1 ≠ textBytes d := fun h' => h (textBytes_inj h')
        simp [h, this, ih]
  unfold coreSlots corePlaces
  simp only [List.map_append, List.map_map, Function.comp_def, List.map_cons, List.map_nil]
  rw [under_append, under_nil, List.nil_append]
  · have := hb s.tradeInfos
    rw [List.map_map] at this
    exact this
  · intro e he
    simp only [List.mem_append, List.mem_cons, List.mem_map, List.not_mem_nil, or_false] at he
    rcases he with ((he | ⟨_, _, rfl⟩) | ⟨_, _, rfl⟩) | ⟨_, _, rfl⟩
    · rcases he with rfl | rfl | rfl | rfl | rfl <;> simp [CorePlace.slot]
    · simp [CorePlace.slot]
    · simp [CorePlace.slot]
    · simp [CorePlace.slot]

/-! ### Airdrop -/

/-- The stored places as slots. -/
def dropSlots (v : ContractVersion) (s : Airdrop.State) : List (Slot × DropVal) :=
  (dropPlaces v s).map (fun e => (e.1.slot, e.2))

theorem dropRaw_eq (v : ContractVersion) (s : Airdrop.State) : dropRaw v s = rawOf (dropSlots v s) := by
  simp [dropRaw, rawOf, dropSlots, Function.comp_def]

/-- Ids fit `u64`, the creators fit their length prefix, no key is stored twice. -/
structure DropFits (s : Airdrop.State) : Prop where
  ids : ∀ e ∈ s.drops, e.1 < 2 ^ 64
  claims : ∀ e ∈ s.claims, e.1.1 < 2 ^ 64
  creators : ∀ e ∈ s.drops, (textBytes e.2.creator).length ≤ 0xFFFF
  drops_nodup : (s.drops.map (·.1)).Nodup
  labels_nodup : (s.labels.map (·.1)).Nodup
  claims_nodup : (s.claims.map (·.1)).Nodup

theorem typeName_fits (a : Airdrop.Drop) : (textBytes (typeName a)).length ≤ 0xFFFF := by
  unfold typeName
  split <;> decide

theorem drop_place_fits {v : ContractVersion} {s : Airdrop.State} (hf : DropFits s) : ∀ e ∈ dropPlaces v s, e.1.Fits := by
  intro e he
  simp only [dropPlaces, List.mem_append, List.mem_cons, List.mem_map, List.not_mem_nil, or_false] at he
  rcases he with ((((he | ⟨x, hx, rfl⟩) | ⟨x, hx, rfl⟩) | ⟨x, hx, rfl⟩) | ⟨x, hx, rfl⟩) | ⟨x, hx, rfl⟩
  · rcases he with rfl | rfl <;> trivial
  · exact hf.ids x hx
  · exact ⟨typeName_fits _, hf.ids x hx⟩
  · exact ⟨hf.creators x hx, hf.ids x hx⟩
  · trivial
  · exact hf.claims x hx

theorem drop_places_nodup {v : ContractVersion} {s : Airdrop.State} (hf : DropFits s) :
    ((dropPlaces v s).map (·.1)).Nodup := by
  have h1 : (s.drops.map (fun e => DropPlace.drop e.1)).Nodup := by
    have := List.Nodup.map (f := DropPlace.drop) (fun a b h => by simpa using h) hf.drops_nodup
    rwa [List.map_map] at this
  have key : ∀ f : Nat × Airdrop.Drop → DropPlace, (∀ a b, f a = f b → a.1 = b.1) → (s.drops.map f).Nodup := by
    intro f hfi
    have hd := hf.drops_nodup
    unfold List.Nodup at hd ⊢
    rw [List.pairwise_map] at hd ⊢
    exact hd.imp (fun hab h => hab (hfi _ _ h))
  have h2 : (s.drops.map (fun e => DropPlace.byType (typeName e.2) e.1)).Nodup := key _ (by simp)
  have h3 : (s.drops.map (fun e => DropPlace.byCreator e.2.creator e.1)).Nodup := key _ (by simp)
  have h4 : (s.labels.map (fun e => DropPlace.label e.1)).Nodup := by
    have := List.Nodup.map (f := DropPlace.label) (fun a b h => by simpa using h) hf.labels_nodup
    rwa [List.map_map] at this
  have h5 : (s.claims.map (fun e => DropPlace.claim e.1.1 e.1.2)).Nodup := by
    have := List.Nodup.map (f := fun k : Nat × String => DropPlace.claim k.1 k.2) (by
      rintro ⟨a, b⟩ ⟨c, d⟩ h
      simpa using h) hf.claims_nodup
    rw [List.map_map] at this
    exact this
  have app : ∀ {a b : List DropPlace}, a.Nodup → b.Nodup → (∀ x ∈ a, ∀ y ∈ b, x ≠ y) → (a ++ b).Nodup :=
    fun ha hb h => List.nodup_append.2 ⟨ha, hb, h⟩
  unfold dropPlaces
  simp only [List.map_append, List.map_map, Function.comp_def, List.map_cons, List.map_nil]
  refine app (app (app (app (app (by simp) h1 ?_) h2 ?_) h3 ?_) h4 ?_) h5 ?_ <;>
  · intro x hx y hy e
    simp only [List.mem_append, List.mem_cons, List.mem_map, List.not_mem_nil, or_false] at hx hy
    obtain ⟨_, _, rfl⟩ := hy
    simp [e] at hx

theorem drop_slots_nodup {v : ContractVersion} {s : Airdrop.State} (hf : DropFits s) :
    ((dropSlots v s).map (·.1)).Nodup := by
  have := List.Nodup.map_on (f := DropPlace.slot) (l := (dropPlaces v s).map (·.1)) (by
    intro a ha b hb h
    obtain ⟨x, hx, rfl⟩ := List.mem_map.1 ha
    obtain ⟨y, hy, rfl⟩ := List.mem_map.1 hb
    exact DropPlace.slot_inj (drop_place_fits hf x hx) (drop_place_fits hf y hy) h) (drop_places_nodup (v := v) hf)
  simpa [dropSlots, List.map_map, Function.comp_def] using this

theorem drop_slots_used {v : ContractVersion} {s : Airdrop.State} (hf : DropFits s) :
    ∀ e ∈ dropSlots v s, Used dropArity e.1 := by
  intro e he
  obtain ⟨x, hx, rfl⟩ := List.mem_map.1 he
  exact DropPlace.used (drop_place_fits hf x hx)

/-- What lies under a prefix, one kind of places after the other. -/
theorem drop_under (v : ContractVersion) (s : Airdrop.State) (ns : String) (parts : List Bytes) :
    under ns parts (dropSlots v s) =
      under ns parts (s.drops.map (fun e => ((DropPlace.drop e.1).slot, DropVal.drop e.2))) ++
      under ns parts (s.drops.map (fun e => ((DropPlace.byType (typeName e.2) e.1).slot, DropVal.pkLen 8))) ++
      under ns parts (s.drops.map (fun e => ((DropPlace.byCreator e.2.creator e.1).slot, DropVal.pkLen 8))) ++
      under ns parts (s.labels.map (fun e => ((DropPlace.label e.1).slot, DropVal.label e.2))) ++
      under ns parts (s.claims.map (fun e => ((DropPlace.claim e.1.1 e.1.2).slot, DropVal.claim e.2))) := by
  unfold dropSlots dropPlaces
  simp only [List.map_append, List.map_map, Function.comp_def, List.map_cons, List.map_nil, under_append]
  rw [under_nil (a := [_, _])]
  · simp
  · intro e he
    simp only [List.mem_cons, List.not_mem_nil, or_false] at he
    rcases he with rfl | rfl <;> simp [DropPlace.slot]

theorem under_map {E V : Type} {l : List E} {slot : E → Slot} {val : E → V} {ns : String} {parts : List Bytes}
    {last : E → Bytes} {sel : E → Bool} (h : ∀ e ∈ l, ∃ ps, slot e = .entry ns ps (last e) ∧ (ps = parts ↔ sel e = true)) :
    under ns parts (l.map (fun e => (slot e, val e))) = (l.filter sel).map (fun e => (last e, val e)) := by
  induction l with
  | nil => rfl
  | cons e l ih =>
    have ih' := ih (fun x hx => h x (by simp [hx]))
    obtain ⟨ps, h1, h2⟩ := h e (by simp)
    rw [List.map_cons, ← List.singleton_append, under_append, ih']
    by_cases hs : sel e = true
    · simp [under, h1, h2.2 hs, hs]
    · have : ps ≠ parts := fun h' => hs (h2.1 h')
      simp [under, h1, this, hs]

theorem under_other {E V : Type} {l : List E} {slot : E → Slot} {val : E → V} {ns : String} {parts : List Bytes}
    (h : ∀ e ps la, slot e ≠ .entry ns ps la) : under ns parts (l.map (fun e => (slot e, val e))) = [] := by
  refine under_nil ?_
  intro e he
  obtain ⟨x, _, rfl⟩ := List.mem_map.1 he
  exact h x

theorem drop_under_drops (v : ContractVersion) (s : Airdrop.State) :
    under "airdrops" [] (dropSlots v s) = s.drops.map (fun e => (u64Bytes e.1, DropVal.drop e.2)) := by
  rw [drop_under, under_map (last := fun e => u64Bytes e.1) (sel := fun _ => true), under_other, under_other, under_other,
    under_other]
  · simp
  all_goals simp [DropPlace.slot]

theorem drop_under_labels (v : ContractVersion) (s : Airdrop.State) :
    under "labels" [] (dropSlots v s) = s.labels.map (fun e => (textBytes e.1, DropVal.label e.2)) := by
  rw [drop_under, under_other, under_other, under_other, under_map (last := fun e => textBytes e.1) (sel := fun _ => true),
    under_other]
  · simp
  all_goals simp [DropPlace.slot]

theorem typeName_eq (a : Airdrop.Drop) : typeName a = typeText a.typeOf := by
  unfold typeName Airdrop.Drop.typeOf typeText
  cases a.kind <;> rfl

theorem typeText_inj {a b : Airdrop.DropType} (h : typeText a = typeText b) : a = b := by
  cases a <;> cases b <;> first | rfl | (revert h; decide)

theorem drop_under_type (v : ContractVersion) (s : Airdrop.State) (typ : Airdrop.DropType) :
    under "airdrops__by_type" [textBytes (typeText typ)] (dropSlots v s) =
      (s.drops.filter (fun e => e.2.typeOf = typ)).map (fun e => (u64Bytes e.1, DropVal.pkLen 8)) := by
  rw [drop_under, under_other, under_map (last := fun e => u64Bytes e.1) (sel := fun e => e.2.typeOf = typ), under_other,
    under_other, under_other]
  · simp
  any_goals simp [DropPlace.slot]
  intro n d _
  rw [typeName_eq]
  exact ⟨fun h => typeText_inj (textBytes_inj h), fun h => by rw [h]⟩

theorem drop_under_creator (v : ContractVersion) (s : Airdrop.State) (creator : Addr) :
    under "airdrops__by_creator" [textBytes creator] (dropSlots v s) =
      (s.drops.filter (fun e => e.2.creator = creator)).map (fun e => (u64Bytes e.1, DropVal.pkLen 8)) := by
  rw [drop_under, under_other, under_other, under_map (last := fun e => u64Bytes e.1) (sel := fun e => e.2.creator = creator),
    under_other, under_other]
  · simp
  any_goals simp [DropPlace.slot]
  intro n d _
  exact ⟨fun h => textBytes_inj h, fun h => by rw [h]⟩

theorem drop_under_claims (v : ContractVersion) {s : Airdrop.State} (hf : DropFits s) {id : Nat} (hid : id < 2 ^ 64) :
    under "claim_logs" [u64Bytes id] (dropSlots v s) =
      ((s.claims.filter (fun e => e.1.1 = id)).map (fun e => (e.1.2, e.2))).map
        (fun e => (textBytes e.1, DropVal.claim e.2)) := by
  rw [drop_under, under_other, under_other, under_other, under_other,
    under_map (last := fun e => textBytes e.1.2) (sel := fun e => e.1.1 = id)]
  · simp [List.map_map, Function.comp_def]
  any_goals simp [DropPlace.slot]
  intro n k x hx
  exact ⟨fun h => u64Bytes_inj (hf.claims _ hx) hid h, fun h => by rw [h]⟩

/-- Scans of the claims stay inside also when the id ends with the byte 255. -/
theorem claims_clean (v : ContractVersion) (s : Airdrop.State) (id : Nat) : Clean (dropSlots v s) "claim_logs" [u64Bytes id] := by
  refine .inr ⟨0, 8 :: u64Bytes id, ?_, by decide, ?_⟩
  · simp [lenPrefixed, u64Bytes, bigEndian_length]
  · intro e he hp
    obtain ⟨⟨p, w⟩, _, rfl⟩ := List.mem_map.1 he
    obtain ⟨x, hx⟩ := hp
    have h2 := congrArg (fun l => l.take 2) hx
    have hlen : (prefixBytes "claim_logs" [u64Bytes id]).length = 22 := by
      simp only [prefixBytes, List.flatMap_cons, List.flatMap_nil, List.append_nil, List.length_append, lenPrefixed,
        List.length_cons, u64Bytes, bigEndian_length]
      decide
    rw [hlen]
    have ha : (lenPrefixed (textBytes "claim_logs") ++ x).take 2 = [0, 10] := by
      simp only [lenPrefixed, List.cons_append, List.take_succ_cons, List.take_zero]
      decide
    simp only at h2
    rw [ha] at h2
    cases p with
    | claim n key =>
      simp only [DropPlace.slot, Slot.bytes, prefixBytes, List.flatMap_cons, List.flatMap_nil, List.append_nil,
        List.length_append, lenPrefixed, List.length_cons, u64Bytes, bigEndian_length]
      have : (textBytes "claim_logs").length = 10 := by decide
      omega
    | version => exact absurd h2 (by decide)
    | latest => exact absurd h2 (by decide)
    | drop n =>
      exfalso
      simp only [DropPlace.slot, Slot.bytes, prefixBytes, lenPrefixed, List.cons_append, List.take_succ_cons,
        List.take_zero] at h2
      revert h2; decide
    | byType n m =>
      exfalso
      simp only [DropPlace.slot, Slot.bytes, prefixBytes, lenPrefixed, List.cons_append, List.take_succ_cons,
        List.take_zero] at h2
      revert h2; decide
    | byCreator n m =>
      exfalso
      simp only [DropPlace.slot, Slot.bytes, prefixBytes, lenPrefixed, List.cons_append, List.take_succ_cons,
        List.take_zero] at h2
      revert h2; decide
    | label n =>
      exfalso
      simp only [DropPlace.slot, Slot.bytes, prefixBytes, lenPrefixed, List.cons_append, List.take_succ_cons,
        List.take_zero] at h2
      revert h2; decide

end Ibcx.Storage
