import Verif.Storage.Lemmas
import Verif.Storage.Contracts
import Verif.Props.Paging
/-!
# Lemmas about the places of the contracts

Not part of the model.
-/

namespace Ibcx.KV
variable {K L V W : Type} [DecidableEq K] [DecidableEq L]

theorem get_map_key {m : KV K V} {f : K → L} {k : K} (hf : ∀ x ∈ m.map (·.1), f x = f k → x = k) :
    KV.get (m.map (fun e => (f e.1, e.2))) (f k) = KV.get m k := by
  induction m with
  | nil => rfl
  | cons e m ih =>
    obtain ⟨k', v⟩ := e
    have ih' := ih (fun x hx h => hf x (by simp at hx ⊢; exact .inr hx) h)
    simp only [List.map_cons, get]
    by_cases h : k' = k
    · rw [if_pos h, if_pos (by rw [h])]
    · rw [if_neg h, if_neg (fun h' => h (hf k' (by simp) h')), ih']

theorem get_append (a b : KV K V) (k : K) : KV.get (a ++ b) k = (KV.get a k).or (KV.get b k) := by
  induction a with
  | nil => simp [get]
  | cons e a ih =>
    obtain ⟨k', v⟩ := e
    simp only [List.cons_append, get]
    split
    · simp
    · exact ih

theorem get_map_none {E : Type} {l : List E} {f : E → K × V} {k : K} (h : ∀ e, (f e).1 ≠ k) : KV.get (l.map f) k = none := by
  rw [get_eq_none]
  simp only [List.map_map, List.mem_map, Function.comp, not_exists, not_and]
  exact fun e _ => h e

theorem get_map_val (m : KV K V) (g : V → W) (k : K) : KV.get (m.map (fun e => (e.1, g e.2))) k = (KV.get m k).map g := by
  induction m with
  | nil => rfl
  | cons e m ih =>
    obtain ⟨k', v⟩ := e
    simp only [List.map_cons, get]
    split
    · rfl
    · exact ih

end Ibcx.KV

namespace Ibcx.Storage
open Ibcx Ibcx.Iface

/-- Number of key parts before the last one. -/
def coreArity (ns : String) : Nat := if ns = "trade_infos" then 1 else 0

/-- Number of key parts before the last one. -/
def dropArity (ns : String) : Nat :=
  if ns = "claim_logs" ∨ ns = "airdrops__by_type" ∨ ns = "airdrops__by_creator" then 1 else 0

/-- The place can be addressed: key parts fit their length prefix. -/
def CorePlace.Fits : CorePlace → Prop
  | .tradeInfo i _ => (textBytes i).length ≤ 0xFFFF
  | _ => True

/-- The place can be addressed: key parts fit their length prefix, numbers fit `u64`. -/
def DropPlace.Fits : DropPlace → Prop
  | .drop id => id < 2 ^ 64
  | .byType typ id => (textBytes typ).length ≤ 0xFFFF ∧ id < 2 ^ 64
  | .byCreator creator id => (textBytes creator).length ≤ 0xFFFF ∧ id < 2 ^ 64
  | .claim id _ => id < 2 ^ 64
  | _ => True

theorem text_lt_256 (s : String) : ∀ b ∈ textBytes s, b < 256 := fun b hb => by
  have := textBytes_lt_255 s b hb
  omega

theorem CorePlace.used {p : CorePlace} (h : p.Fits) : Used coreArity p.slot := by
  cases p with
  | tradeInfo i o =>
    exact ⟨by decide, by decide, rfl, fun p hp => by
      cases List.mem_singleton.1 hp
      exact ⟨h, text_lt_256 i⟩, text_lt_256 o⟩
  | _ => exact ⟨_, _, rfl, by decide⟩

theorem DropPlace.used {p : DropPlace} (h : p.Fits) : Used dropArity p.slot := by
  cases p with
  | version => exact ⟨_, _, rfl, by decide⟩
  | latest => exact ⟨_, _, rfl, by decide⟩
  | drop id => exact ⟨by decide, by decide, rfl, by simp, bigEndian_lt_256 8 id⟩
  | label l => exact ⟨by decide, by decide, rfl, by simp, text_lt_256 l⟩
  | byType t id => exact ⟨by decide, by decide, rfl, fun p hp => by
      cases List.mem_singleton.1 hp
      exact ⟨h.1, text_lt_256 t⟩, bigEndian_lt_256 8 id⟩
  | byCreator t id => exact ⟨by decide, by decide, rfl, fun p hp => by
      cases List.mem_singleton.1 hp
      exact ⟨h.1, text_lt_256 t⟩, bigEndian_lt_256 8 id⟩
  | claim id key => exact ⟨by decide, by decide, rfl, fun p hp => by
      cases List.mem_singleton.1 hp
      exact ⟨by rw [u64Bytes, bigEndian_length]; decide, bigEndian_lt_256 8 id⟩, text_lt_256 key⟩

theorem CorePlace.slot_inj {p q : CorePlace} (h : p.slot = q.slot) : p = q := by
  cases p <;> cases q <;> simp [CorePlace.slot] at h ⊢
  exact ⟨textBytes_inj h.1, textBytes_inj h.2⟩

theorem DropPlace.slot_inj {p q : DropPlace} (hp : p.Fits) (hq : q.Fits) (h : p.slot = q.slot) : p = q := by
  cases p <;> cases q <;> simp [DropPlace.slot] at h ⊢
  · exact u64Bytes_inj hp hq h
  · exact ⟨textBytes_inj h.1, u64Bytes_inj hp.2 hq.2 h.2⟩
  · exact ⟨textBytes_inj h.1, u64Bytes_inj hp.2 hq.2 h.2⟩
  · exact textBytes_inj h
  · exact ⟨u64Bytes_inj hp hq h.1, textBytes_inj h.2⟩

theorem CorePlace.bytes_inj {p q : CorePlace} (hp : p.Fits) (hq : q.Fits) (h : p.slot.bytes = q.slot.bytes) : p = q :=
  CorePlace.slot_inj (Storage.bytes_inj (CorePlace.used hp) (CorePlace.used hq) h)

theorem DropPlace.bytes_inj {p q : DropPlace} (hp : p.Fits) (hq : q.Fits) (h : p.slot.bytes = q.slot.bytes) : p = q :=
  DropPlace.slot_inj hp hq (Storage.bytes_inj (DropPlace.used hp) (DropPlace.used hq) h)

/-- The value of the state belonging to a place. -/
def coreAt (v : ContractVersion) (s : Core.State) : CorePlace → Option CoreVal
  | .version => some (.version v)
  | .config => some (.config s.config)
  | .pendingGov => s.pendingGov.map .pendingGov
  | .fee => some (.fee s.fee)
  | .totalSupply => some (.totalSupply s.totalSupply)
  | .indexUnits => some (.units s.indexUnits)
  | .rebalance => s.rebalance.map .rebalance
  | .reserveUnits => s.reserveUnits.map .units
  | .tradeInfo i o => (s.tradeInfos.get (i, o)).map .tradeInfo

/-- The value of the state belonging to a place. -/
def dropAt (v : ContractVersion) (s : Airdrop.State) : DropPlace → Option DropVal
  | .version => some (.version v)
  | .latest => some (.latest s.latest)
  | .drop id => (s.drops.get id).map .drop
  | .byType typ id => if (s.drops.get id).map typeName = some typ then some (.pkLen 8) else none
  | .byCreator creator id => if (s.drops.get id).map (·.creator) = some creator then some (.pkLen 8) else none
  | .label l => (s.labels.get l).map .label
  | .claim id key => (s.claims.get (id, key)).map .claim

theorem core_places_get (v : ContractVersion) (s : Core.State) (p : CorePlace) :
    KV.get (corePlaces v s) p = coreAt v s p := by
  have hmap : KV.get (List.map (fun e : (Denom × Denom) × Core.TradeInfo =>
      (CorePlace.tradeInfo e.1.1 e.1.2, CoreVal.tradeInfo e.2)) s.tradeInfos) p =
      match p with | .tradeInfo i o => (s.tradeInfos.get (i, o)).map .tradeInfo | _ => none := by
    cases p with
    | tradeInfo i o =>
      have := KV.get_map_key (m := s.tradeInfos.map (fun e => (e.1, CoreVal.tradeInfo e.2)))
        (f := fun k => CorePlace.tradeInfo k.1 k.2) (k := (i, o)) (by
          intro x _ hx
          obtain ⟨x1, x2⟩ := x
          simpa using hx)
      rw [List.map_map, KV.get_map_val] at this
      exact this
    | _ => exact KV.get_map_none (fun e => by simp)
  unfold corePlaces
  rw [KV.get_append, KV.get_append, KV.get_append, KV.get_append, hmap]
  cases p <;> cases h1 : s.pendingGov <;> cases h2 : s.rebalance <;> cases h3 : s.reserveUnits <;>
    simp [coreAt, KV.get, h1, h2, h3]

theorem filter_map_get {m : KV Nat Airdrop.Drop} (hn : (m.map (·.1)).Nodup) (f : Airdrop.Drop → String)
    (place : String → Nat → DropPlace) (hp : ∀ a b c d, place a b = place c d ↔ a = c ∧ b = d) (x : String) (id : Nat) :
    KV.get (m.map (fun e => (place (f e.2) e.1, DropVal.pkLen 8))) (place x id) =
      if (m.get id).map f = some x then some (.pkLen 8) else none := by
  induction m with
  | nil => rfl
  | cons e m ih =>
    obtain ⟨k, a⟩ := e
    simp only [List.map_cons, List.nodup_cons] at hn
    by_cases hk : k = id
    · subst hk
      have hm : KV.get m k = none := KV.get_eq_none.2 hn.1
      simp only [List.map_cons, KV.get, hp]
      by_cases hx : f a = x
      · simp [hx]
      · simp [hx, ih hn.2, hm]
    · simp only [List.map_cons, KV.get, hp, if_neg hk, hk, and_false, ↓reduceIte]
      exact ih hn.2

theorem drop_places_get (v : ContractVersion) {s : Airdrop.State} (hn : (s.drops.map (·.1)).Nodup) (p : DropPlace) :
    KV.get (dropPlaces v s) p = dropAt v s p := by
  have h1 : KV.get (s.drops.map fun e => (DropPlace.drop e.1, DropVal.drop e.2)) p =
      match p with | .drop id => (s.drops.get id).map .drop | _ => none := by
    cases p with
    | drop id =>
      have := KV.get_map_key (m := s.drops.map (fun e => (e.1, DropVal.drop e.2))) (f := DropPlace.drop) (k := id)
        (by intro x _ hx; simpa using hx)
      rw [List.map_map, KV.get_map_val] at this
      exact this
    | _ => exact KV.get_map_none (fun e => by simp)
  have h2 : KV.get (s.drops.map fun e => (DropPlace.byType (typeName e.2) e.1, DropVal.pkLen 8)) p =
      match p with
      | .byType typ id => if (s.drops.get id).map typeName = some typ then some (.pkLen 8) else none
      | _ => none := by
    cases p with
    | byType typ id => exact filter_map_get hn typeName DropPlace.byType (by simp) typ id
    | _ => exact KV.get_map_none (fun e => by simp)
  have h3 : KV.get (s.drops.map fun e => (DropPlace.byCreator e.2.creator e.1, DropVal.pkLen 8)) p =
      match p with
      | .byCreator cr id => if (s.drops.get id).map (·.creator) = some cr then some (.pkLen 8) else none
      | _ => none := by
    cases p with
    | byCreator cr id => exact filter_map_get hn (·.creator) DropPlace.byCreator (by simp) cr id
    | _ => exact KV.get_map_none (fun e => by simp)
  have h4 : KV.get (s.labels.map fun e => (DropPlace.label e.1, DropVal.label e.2)) p =
      match p with | .label l => (s.labels.get l).map .label | _ => none := by
    cases p with
    | label l =>
      have := KV.get_map_key (m := s.labels.map (fun e => (e.1, DropVal.label e.2))) (f := DropPlace.label) (k := l)
        (by intro x _ hx; simpa using hx)
      rw [List.map_map, KV.get_map_val] at this
      exact this
    | _ => exact KV.get_map_none (fun e => by simp)
  have h5 : KV.get (s.claims.map fun e => (DropPlace.claim e.1.1 e.1.2, DropVal.claim e.2)) p =
      match p with | .claim id key => (s.claims.get (id, key)).map .claim | _ => none := by
    cases p with
    | claim id key =>
      have := KV.get_map_key (m := s.claims.map (fun e => (e.1, DropVal.claim e.2)))
        (f := fun k => DropPlace.claim k.1 k.2) (k := (id, key)) (by
          intro x _ hx
          obtain ⟨x1, x2⟩ := x
          simpa using hx)
      rw [List.map_map, KV.get_map_val] at this
      exact this
    | _ => exact KV.get_map_none (fun e => by simp)
  unfold dropPlaces
  rw [KV.get_append, KV.get_append, KV.get_append, KV.get_append, KV.get_append, h1, h2, h3, h4, h5]
  cases p <;> simp [dropAt, KV.get]

end Ibcx.Storage
