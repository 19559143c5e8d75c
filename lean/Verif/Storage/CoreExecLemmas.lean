import Verif.Storage.CoreExec
import Verif.Storage.ExecLemmas
/-!
# Lemmas about the core contract on the byte storage

Not part of the model.
-/

namespace Ibcx.Storage
open Ibcx Ibcx.Iface Ibcx.Core

section
variable {V : Type} [CoreCell V]

/-- The storage holds exactly the given values under the keys of the places. -/
structure CoreRep {V : Type} [CoreCell V] (m : Raw V) (A : CorePlace → Option CoreVal) : Prop where
  nodup : (m.map (·.1)).Nodup
  get : ∀ p : CorePlace, p.Fits → m.get p.slot.bytes = (A p).map CoreCell.write
  only : ∀ k, m.get k ≠ none → ∃ p : CorePlace, p.Fits ∧ k = p.slot.bytes

theorem CoreRep.congr {m : Raw V} {A B : CorePlace → Option CoreVal} (h : CoreRep m A)
    (e : ∀ p, p.Fits → A p = B p) : CoreRep m B :=
  ⟨h.nodup, fun p hp => (h.get p hp).trans (by rw [e p hp]), h.only⟩

theorem CoreRep.put {m : Raw V} {A : CorePlace → Option CoreVal} (h : CoreRep m A) {p : CorePlace} (hp : p.Fits)
    (v : CoreVal) : ∃ m', corePut m p v = .ok m' ∧ CoreRep m' (fun q => if q = p then some v else A q) := by
  refine ⟨KV.set m p.slot.bytes (CoreCell.write v), ?_, KV.nodup_set h.nodup, ?_, ?_⟩
  · simp only [corePut, (CorePlace.used hp).key]; rfl
  · intro q hq
    rw [KV.get_set]
    by_cases e : q = p
    · subst e; simp
    · rw [if_neg e, if_neg, h.get q hq]
      intro h'
      first
        | exact e (CorePlace.bytes_inj hq hp h')
        | exact e (CorePlace.bytes_inj hq hp h'.symm)
  · intro k hk
    rw [KV.get_set] at hk
    split at hk
    · rename_i e
      first
        | exact ⟨p, hp, e⟩
        | exact ⟨p, hp, e.symm⟩
    · exact h.only k hk

theorem CoreRep.remove {m : Raw V} {A : CorePlace → Option CoreVal} (h : CoreRep m A) {p : CorePlace} (hp : p.Fits) :
    ∃ m', coreRemove m p = .ok m' ∧ CoreRep m' (fun q => if q = p then none else A q) := by
  refine ⟨m.filter (fun e => e.1 ≠ p.slot.bytes), ?_, ((List.filter_sublist).map _).nodup h.nodup, ?_, ?_⟩
  · simp only [coreRemove, (CorePlace.used hp).key]; rfl
  · intro q hq
    rw [filter_get_ne]
    by_cases e : q = p
    · subst e; simp
    · rw [if_neg e, if_neg (fun h' => e (CorePlace.bytes_inj hq hp h')), h.get q hq]
  · intro k hk
    rw [filter_get_ne] at hk
    split at hk
    · exact absurd rfl hk
    · exact h.only k hk

theorem CoreRep.read {m : Raw V} {A : CorePlace → Option CoreVal} (h : CoreRep m A) {p : CorePlace} (hp : p.Fits) :
    coreGet m p = .ok ((A p).map CoreCell.write) := by
  simp only [coreGet, (CorePlace.used hp).key, Bind.bind, Except.bind, h.get p hp]

/-- What the state keeps is read back from the bytes written. -/
structure CoreReads (V : Type) [CoreCell V] (s : State) : Prop where
  config : CoreCell.asConfig (CoreCell.write (.config s.config) : V) = some s.config
  fee : CoreCell.asFee (CoreCell.write (.fee s.fee) : V) = some s.fee
  supply : CoreCell.asSupply (CoreCell.write (.totalSupply s.totalSupply) : V) = some s.totalSupply
  units : CoreCell.asUnits (CoreCell.write (.units s.indexUnits) : V) = some s.indexUnits
  pending : ∀ a, s.pendingGov = some a → CoreCell.asAddr (CoreCell.write (.pendingGov a) : V) = some a
  rebalance : ∀ r, s.rebalance = some r → CoreCell.asRebalance (CoreCell.write (.rebalance r) : V) = some r
  reserve : ∀ u, s.reserveUnits = some u → CoreCell.asUnits (CoreCell.write (.units u) : V) = some u
  info : ∀ k t, s.tradeInfos.get k = some t → CoreCell.asTradeInfo (CoreCell.write (.tradeInfo t) : V) = some t

/-- Values kept as they are are always read back. -/
theorem coreReads_val (s : State) : CoreReads CoreVal s :=
  ⟨rfl, rfl, rfl, rfl, fun _ _ => rfl, fun _ _ => rfl, fun _ _ => rfl, fun _ _ _ => rfl⟩

theorem ok_bind {α β : Type} (a : α) (f : α → Res β) : ((Except.ok a : Res α) >>= f) = f a := rfl

theorem CoreRep.may {α : Type} {m : Raw V} {A : CorePlace → Option CoreVal} (h : CoreRep m A) {p : CorePlace}
    (hp : p.Fits) (parse : V → Option α) {x : Option α} {mk : α → CoreVal} (hx : A p = x.map mk)
    (hmk : ∀ a, x = some a → parse (CoreCell.write (mk a)) = some a) : coreMay m p parse = .ok x := by
  unfold coreMay
  rw [h.read hp, hx]
  cases x with
  | none => rfl
  | some a => simp only [Option.map_some, ok_bind, hmk a rfl]

/-- A missing value is an error. -/
def orNotFound {α : Type} : Option α → Res α
  | some a => .ok a
  | none => .error .notFound

theorem CoreRep.load {α : Type} {m : Raw V} {A : CorePlace → Option CoreVal} (h : CoreRep m A) {p : CorePlace}
    (hp : p.Fits) (parse : V → Option α) {x : Option α} {mk : α → CoreVal} (hx : A p = x.map mk)
    (hmk : ∀ a, x = some a → parse (CoreCell.write (mk a)) = some a) :
    coreLoad m p parse = orNotFound x := by
  unfold coreLoad
  rw [h.may hp parse hx hmk]
  cases x <;> rfl

section
variable {v : ContractVersion} {m : Raw V} {s : State}

theorem CoreRep.version (h : CoreRep m (coreAt v s)) (r : CoreCell.asVersion (CoreCell.write (.version v) : V) = some v) : coreLoad m .version CoreCell.asVersion = .ok v :=
  h.load (p := .version) trivial _ (x := some v) (mk := .version) rfl fun _ e => by cases e; exact r

theorem CoreRep.config (h : CoreRep m (coreAt v s)) (r : CoreCell.asConfig (CoreCell.write (.config s.config) : V) = some s.config) : coreLoad m .config CoreCell.asConfig = .ok s.config :=
  h.load (p := .config) trivial _ (x := some s.config) (mk := .config) rfl fun _ e => by cases e; exact r

theorem CoreRep.fee (h : CoreRep m (coreAt v s)) (r : CoreCell.asFee (CoreCell.write (.fee s.fee) : V) = some s.fee) : coreLoad m .fee CoreCell.asFee = .ok s.fee :=
  h.load (p := .fee) trivial _ (x := some s.fee) (mk := .fee) rfl fun _ e => by cases e; exact r

theorem CoreRep.supply (h : CoreRep m (coreAt v s)) (r : CoreCell.asSupply (CoreCell.write (.totalSupply s.totalSupply) : V) = some s.totalSupply) : coreLoad m .totalSupply CoreCell.asSupply = .ok s.totalSupply :=
  h.load (p := .totalSupply) trivial _ (x := some s.totalSupply) (mk := .totalSupply) rfl fun _ e => by cases e; exact r

theorem CoreRep.units (h : CoreRep m (coreAt v s)) (r : CoreCell.asUnits (CoreCell.write (.units s.indexUnits) : V) = some s.indexUnits) : coreLoad m .indexUnits CoreCell.asUnits = .ok s.indexUnits :=
  h.load (p := .indexUnits) trivial _ (x := some s.indexUnits) (mk := .units) rfl fun _ e => by cases e; exact r

theorem CoreRep.mayPending (h : CoreRep m (coreAt v s)) (r : ∀ a, s.pendingGov = some a → CoreCell.asAddr (CoreCell.write (.pendingGov a) : V) = some a) : coreMay m .pendingGov CoreCell.asAddr = .ok s.pendingGov :=
  h.may (p := .pendingGov) trivial _ (mk := .pendingGov) rfl r

theorem CoreRep.pending (h : CoreRep m (coreAt v s)) (r : ∀ a, s.pendingGov = some a → CoreCell.asAddr (CoreCell.write (.pendingGov a) : V) = some a) : coreLoad m .pendingGov CoreCell.asAddr =
    orNotFound s.pendingGov :=
  h.load (p := .pendingGov) trivial _ (mk := .pendingGov) rfl r

theorem CoreRep.mayRebalance (h : CoreRep m (coreAt v s)) (r : ∀ x, s.rebalance = some x → CoreCell.asRebalance (CoreCell.write (.rebalance x) : V) = some x) : coreMay m .rebalance CoreCell.asRebalance = .ok s.rebalance :=
  h.may (p := .rebalance) trivial _ (mk := .rebalance) rfl r

theorem CoreRep.rebalance (h : CoreRep m (coreAt v s)) (r : ∀ x, s.rebalance = some x → CoreCell.asRebalance (CoreCell.write (.rebalance x) : V) = some x) : coreLoad m .rebalance CoreCell.asRebalance =
    orNotFound s.rebalance :=
  h.load (p := .rebalance) trivial _ (mk := .rebalance) rfl r

theorem CoreRep.reserve (h : CoreRep m (coreAt v s)) (r : ∀ u, s.reserveUnits = some u → CoreCell.asUnits (CoreCell.write (.units u) : V) = some u) : coreLoad m .reserveUnits CoreCell.asUnits = loadReserve s := by
  rw [h.load (p := .reserveUnits) trivial _ (mk := .units) (x := s.reserveUnits) rfl r]
  unfold loadReserve
  cases s.reserveUnits <;> rfl

theorem CoreRep.mayInfo (h : CoreRep m (coreAt v s)) (r : ∀ k t, s.tradeInfos.get k = some t → CoreCell.asTradeInfo (CoreCell.write (.tradeInfo t) : V) = some t) {i : Denom} (hi : (textBytes i).length ≤ 0xFFFF) (o : Denom) :
    coreMay m (.tradeInfo i o) CoreCell.asTradeInfo = .ok (s.tradeInfos.get (i, o)) :=
  h.may (p := .tradeInfo i o) hi _ (mk := .tradeInfo) rfl fun t e => r _ t e

theorem CoreRep.info (h : CoreRep m (coreAt v s)) (r : ∀ k t, s.tradeInfos.get k = some t → CoreCell.asTradeInfo (CoreCell.write (.tradeInfo t) : V) = some t) {i : Denom} (hi : (textBytes i).length ≤ 0xFFFF) (o : Denom) :
    coreLoad m (.tradeInfo i o) CoreCell.asTradeInfo = s.tradeInfos.load (i, o) := by
  rw [h.load (p := .tradeInfo i o) hi _ (mk := .tradeInfo) (x := s.tradeInfos.get (i, o)) rfl fun t e => r _ t e]
  unfold KV.load
  cases s.tradeInfos.get (i, o) <;> rfl

theorem CoreRep.putVersion (h : CoreRep m (coreAt v s)) (w : ContractVersion) :
    ∃ m', corePut m .version (.version w) = .ok m' ∧ CoreRep m' (coreAt w s) := by
  obtain ⟨m', h1, h2⟩ := h.put (p := .version) trivial (.version w)
  exact ⟨m', h1, h2.congr fun q _ => by cases q <;> simp [coreAt]⟩

theorem CoreRep.putConfig (h : CoreRep m (coreAt v s)) (c : Config) :
    ∃ m', corePut m .config (.config c) = .ok m' ∧ CoreRep m' (coreAt v { s with config := c }) := by
  obtain ⟨m', h1, h2⟩ := h.put (p := .config) trivial (.config c)
  exact ⟨m', h1, h2.congr fun q _ => by cases q <;> simp [coreAt]⟩

theorem CoreRep.putFee (h : CoreRep m (coreAt v s)) (f : Fee) :
    ∃ m', corePut m .fee (.fee f) = .ok m' ∧ CoreRep m' (coreAt v { s with fee := f }) := by
  obtain ⟨m', h1, h2⟩ := h.put (p := .fee) trivial (.fee f)
  exact ⟨m', h1, h2.congr fun q _ => by cases q <;> simp [coreAt]⟩

theorem CoreRep.putSupply (h : CoreRep m (coreAt v s)) (n : Nat) :
    ∃ m', corePut m .totalSupply (.totalSupply n) = .ok m' ∧ CoreRep m' (coreAt v { s with totalSupply := n }) := by
  obtain ⟨m', h1, h2⟩ := h.put (p := .totalSupply) trivial (.totalSupply n)
  exact ⟨m', h1, h2.congr fun q _ => by cases q <;> simp [coreAt]⟩

theorem CoreRep.putUnits (h : CoreRep m (coreAt v s)) (u : Units) :
    ∃ m', corePut m .indexUnits (.units u) = .ok m' ∧ CoreRep m' (coreAt v { s with indexUnits := u }) := by
  obtain ⟨m', h1, h2⟩ := h.put (p := .indexUnits) trivial (.units u)
  exact ⟨m', h1, h2.congr fun q _ => by cases q <;> simp [coreAt]⟩

theorem CoreRep.putPending (h : CoreRep m (coreAt v s)) (a : Addr) :
    ∃ m', corePut m .pendingGov (.pendingGov a) = .ok m' ∧ CoreRep m' (coreAt v { s with pendingGov := some a }) := by
  obtain ⟨m', h1, h2⟩ := h.put (p := .pendingGov) trivial (.pendingGov a)
  exact ⟨m', h1, h2.congr fun q _ => by cases q <;> simp [coreAt]⟩

theorem CoreRep.removePending (h : CoreRep m (coreAt v s)) :
    ∃ m', coreRemove m .pendingGov = .ok m' ∧ CoreRep m' (coreAt v { s with pendingGov := none }) := by
  obtain ⟨m', h1, h2⟩ := h.remove (p := .pendingGov) trivial
  exact ⟨m', h1, h2.congr fun q _ => by cases q <;> simp [coreAt]⟩

theorem CoreRep.putRebalance (h : CoreRep m (coreAt v s)) (r : Rebalance) :
    ∃ m', corePut m .rebalance (.rebalance r) = .ok m' ∧ CoreRep m' (coreAt v { s with rebalance := some r }) := by
  obtain ⟨m', h1, h2⟩ := h.put (p := .rebalance) trivial (.rebalance r)
  exact ⟨m', h1, h2.congr fun q _ => by cases q <;> simp [coreAt]⟩

theorem CoreRep.removeRebalance (h : CoreRep m (coreAt v s)) :
    ∃ m', coreRemove m .rebalance = .ok m' ∧ CoreRep m' (coreAt v { s with rebalance := none }) := by
  obtain ⟨m', h1, h2⟩ := h.remove (p := .rebalance) trivial
  exact ⟨m', h1, h2.congr fun q _ => by cases q <;> simp [coreAt]⟩

theorem CoreRep.putReserve (h : CoreRep m (coreAt v s)) (u : Units) :
    ∃ m', corePut m .reserveUnits (.units u) = .ok m' ∧ CoreRep m' (coreAt v { s with reserveUnits := some u }) := by
  obtain ⟨m', h1, h2⟩ := h.put (p := .reserveUnits) trivial (.units u)
  exact ⟨m', h1, h2.congr fun q _ => by cases q <;> simp [coreAt]⟩

theorem CoreRep.removeReserve (h : CoreRep m (coreAt v s)) :
    ∃ m', coreRemove m .reserveUnits = .ok m' ∧ CoreRep m' (coreAt v { s with reserveUnits := none }) := by
  obtain ⟨m', h1, h2⟩ := h.remove (p := .reserveUnits) trivial
  exact ⟨m', h1, h2.congr fun q _ => by cases q <;> simp [coreAt]⟩

theorem CoreRep.putInfo (h : CoreRep m (coreAt v s)) {i : Denom} (hi : (textBytes i).length ≤ 0xFFFF) (o : Denom)
    (t : TradeInfo) : ∃ m', corePut m (.tradeInfo i o) (.tradeInfo t) = .ok m' ∧
      CoreRep m' (coreAt v { s with tradeInfos := s.tradeInfos.set (i, o) t }) := by
  obtain ⟨m', h1, h2⟩ := h.put (p := .tradeInfo i o) hi (.tradeInfo t)
  refine ⟨m', h1, h2.congr fun q _ => ?_⟩
  cases q with
  | tradeInfo a b =>
    by_cases e : a = i ∧ b = o
    · obtain ⟨rfl, rfl⟩ := e; simp [coreAt]
    · rw [if_neg (by simpa using e)]
      simp only [coreAt, KV.get_set]
      rw [if_neg (by
        intro h'
        simp only [Prod.mk.injEq] at h'
        exact e (by first | exact h' | exact ⟨h'.1.symm, h'.2.symm⟩))]
  | _ => simp [coreAt]

theorem CoreRep.loadUnits (h : CoreRep m (coreAt v s)) (r : CoreReads V s) :
    coreLoadUnits m = (loadReserve s >>= fun reserve => .ok (s.indexUnits, reserve, s.totalSupply)) := by
  simp only [coreLoadUnits, h.units r.units, h.reserve r.reserve, h.supply r.supply, ok_bind]

end

/-- The raw result matches the abstract one. -/
def CoreMatches (v : ContractVersion) : Res (CoreOutOf V) → Res Out → Prop
  | .ok (m, ms), .ok (s, ms') => ms = ms' ∧ CoreRep m (coreAt v s)
  | .error e, .error e' => e = e'
  | _, _ => False

theorem CoreMatches.bind {v : ContractVersion} {α : Type} (x : Res α) {f : α → Res (CoreOutOf V)} {g : α → Res Out}
    (h : ∀ a, x = .ok a → CoreMatches v (f a) (g a)) : CoreMatches v (x >>= f) (x >>= g) := by
  cases x with
  | error e => exact rfl
  | ok a => exact h a rfl

end

end Ibcx.Storage
