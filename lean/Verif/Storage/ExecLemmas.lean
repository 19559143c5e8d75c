import Verif.Storage.Exec
import Verif.Storage.ListLemmas
/-!
# Lemmas about the airdrop contract on the byte storage

Not part of the model.
-/

namespace Ibcx.Storage
open Ibcx Ibcx.Iface Ibcx.Airdrop

section
variable {V : Type} [DropCell V]

/-- The storage holds exactly the given values under the keys of the places. -/
structure Rep {V : Type} [DropCell V] (m : Raw V) (A : DropPlace → Option DropVal) : Prop where
  nodup : (m.map (·.1)).Nodup
  get : ∀ p : DropPlace, p.Fits → m.get p.slot.bytes = (A p).map DropCell.write
  only : ∀ k, m.get k ≠ none → ∃ p : DropPlace, p.Fits ∧ k = p.slot.bytes

theorem Rep.congr {m : Raw V} {A B : DropPlace → Option DropVal} (h : Rep m A) (e : ∀ p, p.Fits → A p = B p) : Rep m B :=
  ⟨h.nodup, fun p hp => (h.get p hp).trans (by rw [e p hp]), h.only⟩

theorem Rep.put {m : Raw V} {A : DropPlace → Option DropVal} (h : Rep m A) {p : DropPlace} (hp : p.Fits) (v : DropVal) :
    ∃ m', rawPut m p v = .ok m' ∧ Rep m' (fun q => if q = p then some v else A q) := by
  refine ⟨KV.set m p.slot.bytes (DropCell.write v), ?_, KV.nodup_set h.nodup, ?_, ?_⟩
  · simp only [rawPut, (DropPlace.used hp).key]; rfl
  · intro q hq
    rw [KV.get_set]
    by_cases e : q = p
    · subst e; simp
    · rw [if_neg e, if_neg, h.get q hq]
      intro h'
      first
        | exact e (DropPlace.bytes_inj hq hp h')
        | exact e (DropPlace.bytes_inj hq hp h'.symm)
  · intro k hk
    rw [KV.get_set] at hk
    split at hk
    · rename_i e
      first
        | exact ⟨p, hp, e⟩
        | exact ⟨p, hp, e.symm⟩
    · exact h.only k hk

theorem filter_get_ne {V : Type} (m : Raw V) (k x : Bytes) :
    KV.get (m.filter (fun e => e.1 ≠ k)) x = if x = k then none else m.get x := by
  induction m with
  | nil => simp [KV.get]
  | cons e m ih =>
    obtain ⟨y, w⟩ := e
    by_cases hy : y = k
    · subst hy
      rw [List.filter_cons_of_neg (by simp), ih]
      by_cases hx : x = y
      · simp [hx]
      · simp [hx, KV.get, Ne.symm hx]
    · rw [List.filter_cons_of_pos (by simpa using hy)]
      simp only [KV.get, ih]
      by_cases hx : x = k
      · subst hx; simp [hy]
      · simp [hx]

theorem Rep.remove {m : Raw V} {A : DropPlace → Option DropVal} (h : Rep m A) {p : DropPlace} (hp : p.Fits) :
    ∃ m', rawRemove m p = .ok m' ∧ Rep m' (fun q => if q = p then none else A q) := by
  refine ⟨m.filter (fun e => e.1 ≠ p.slot.bytes), ?_, ((List.filter_sublist).map _).nodup h.nodup, ?_, ?_⟩
  · simp only [rawRemove, (DropPlace.used hp).key]; rfl
  · intro q hq
    rw [filter_get_ne]
    by_cases e : q = p
    · subst e; simp
    · rw [if_neg e, if_neg (fun h' => e (DropPlace.bytes_inj hq hp h')), h.get q hq]
  · intro k hk
    rw [filter_get_ne] at hk
    split at hk
    · exact absurd rfl hk
    · exact h.only k hk

theorem Rep.read {m : Raw V} {A : DropPlace → Option DropVal} (h : Rep m A) {p : DropPlace} (hp : p.Fits) :
    rawGet m p = .ok ((A p).map DropCell.write) := by
  simp only [rawGet, (DropPlace.used hp).key, Bind.bind, Except.bind, h.get p hp]

theorem Rep.may {α : Type} {m : Raw V} {A : DropPlace → Option DropVal} (h : Rep m A) {p : DropPlace} (hp : p.Fits)
    (parse : V → Option α) {x : Option α} {mk : α → DropVal} (hx : A p = x.map mk)
    (hmk : ∀ a, x = some a → parse (DropCell.write (mk a)) = some a) : rawMay m p parse = .ok x := by
  unfold rawMay
  rw [h.read hp, hx]
  cases x with
  | none => rfl
  | some a => simp only [Option.map_some, Bind.bind, Except.bind, hmk a rfl]

/-- What the state keeps is read back from the bytes written. -/
structure DropReads (V : Type) [DropCell V] (s : Airdrop.State) : Prop where
  latest : DropCell.asLatest (DropCell.write (.latest s.latest) : V) = some s.latest
  drops : ∀ id a, s.drops.get id = some a → DropCell.asDrop (DropCell.write (.drop a) : V) = some a
  labels : ∀ l n, s.labels.get l = some n → DropCell.asLabel (DropCell.write (.label n) : V) = some n
  claims : ∀ k n, s.claims.get k = some n → DropCell.asClaim (DropCell.write (.claim n) : V) = some n

/-- Values kept as they are are always read back. -/
theorem dropReads_val (s : Airdrop.State) : DropReads DropVal s :=
  ⟨rfl, fun _ _ _ => rfl, fun _ _ _ => rfl, fun _ _ _ => rfl⟩

section
variable {v : ContractVersion} {m : Raw V} {s : Airdrop.State}

theorem Rep.latest (h : Rep m (dropAt v s)) (r : DropCell.asLatest (DropCell.write (.latest s.latest) : V) = some s.latest) :
    rawLatest m = .ok s.latest := by
  unfold rawLatest rawLoad
  rw [h.may (p := .latest) trivial _ (x := some s.latest) (mk := .latest) rfl fun _ e => by cases e; exact r]
  rfl

theorem Rep.mayDrop (h : Rep m (dropAt v s))
    (r : ∀ id a, s.drops.get id = some a → DropCell.asDrop (DropCell.write (.drop a) : V) = some a) {id : Nat}
    (hid : id < 2 ^ 64) : rawMayDrop m id = .ok (s.drops.get id) :=
  h.may (p := .drop id) hid _ (mk := .drop) rfl (r id)

theorem Rep.drop (h : Rep m (dropAt v s))
    (r : ∀ id a, s.drops.get id = some a → DropCell.asDrop (DropCell.write (.drop a) : V) = some a) {id : Nat}
    (hid : id < 2 ^ 64) : rawDrop m id = s.drops.load id := by
  unfold rawDrop rawLoad
  rw [show rawMay m (.drop id) DropCell.asDrop = _ from h.mayDrop r hid]
  simp only [KV.load, Bind.bind, Except.bind]
  cases s.drops.get id <;> rfl

theorem Rep.label (h : Rep m (dropAt v s))
    (r : ∀ l n, s.labels.get l = some n → DropCell.asLabel (DropCell.write (.label n) : V) = some n) (l : String) :
    rawLabel m l = s.labels.load l := by
  unfold rawLabel rawLoad
  rw [h.may (p := .label l) trivial _ (mk := .label) (x := s.labels.get l) rfl (r l)]
  simp only [KV.load, Bind.bind, Except.bind]
  cases s.labels.get l <;> rfl

theorem Rep.loadAirdrop (h : Rep m (dropAt v s)) (r : DropReads V s) (hl : ∀ l n, s.labels.get l = some n → n < 2 ^ 64) {id : DropId}
    (hid : ∀ n, id = .id n → n < 2 ^ 64) : rawLoadAirdrop m id = Airdrop.loadAirdrop s id := by
  cases id with
  | id n =>
    simp only [rawLoadAirdrop, Airdrop.loadAirdrop, Bind.bind, Except.bind]
    rw [h.drop r.drops (hid n rfl)]
  | label l =>
    simp only [rawLoadAirdrop, Airdrop.loadAirdrop, h.label r.labels l]
    cases hx : s.labels.get l with
    | none => simp [KV.load, hx, Bind.bind, Except.bind]
    | some n =>
      simp only [KV.load, hx, Bind.bind, Except.bind]
      rw [h.drop r.drops (hl l n hx)]
      rfl

theorem Rep.notClaimed (h : Rep m (dropAt v s)) (r : DropReads V s) {id : Nat} (hid : id < 2 ^ 64) (key : String) :
    rawNotClaimed m id key = assertNotClaimed s id key := by
  unfold rawNotClaimed assertNotClaimed
  rw [h.may (p := .claim id key) hid _ (mk := .claim) (x := s.claims.get (id, key)) rfl (r.claims _)]
  rfl

/-- `save_label`. -/
theorem Rep.saveLabel (h : Rep m (dropAt v s)) (id : Nat) (label : Option String) :
    (∃ e, saveLabel s.labels id label = .error e ∧ rawSaveLabel m id label = .error e) ∨
    ∃ ls m', saveLabel s.labels id label = .ok ls ∧ rawSaveLabel m id label = .ok m' ∧
      Rep m' (dropAt v { s with labels := ls }) := by
  cases label with
  | none => exact .inr ⟨_, _, rfl, rfl, h⟩
  | some l =>
    simp only [Airdrop.saveLabel, rawSaveLabel, h.read (p := .label l) trivial, require]
    cases hx : s.labels.get l with
    | some n =>
      left
      simp [dropAt, hx, Bind.bind, Except.bind]
    | none =>
      right
      obtain ⟨m', h1, h2⟩ := h.put (p := .label l) trivial (.label id)
      refine ⟨_, m', rfl, ?_, h2.congr ?_⟩
      · simp [dropAt, hx, Bind.bind, Except.bind, h1]
      · intro q _
        cases q with
        | label l' =>
          by_cases e : l' = l
          · subst e; simp [dropAt]
          · simp [dropAt, e, KV.get_set, eq_comm (a := l) (b := l')]
        | _ => simp [dropAt]

/-- `airdrops().save` keeps the indexes. -/
theorem Rep.saveDrop (h : Rep m (dropAt v s))
    (r : ∀ id a, s.drops.get id = some a → DropCell.asDrop (DropCell.write (.drop a) : V) = some a) {id : Nat} (hid : id < 2 ^ 64) {a : Drop}
    (ho : ∀ o, s.drops.get id = some o → (textBytes o.creator).length ≤ 0xFFFF) (ha : (textBytes a.creator).length ≤ 0xFFFF) :
    ∃ m', rawSaveDrop m id a = .ok m' ∧ Rep m' (dropAt v { s with drops := s.drops.set id a }) := by
  have tail : ∀ (m1 : Raw V) (A : DropPlace → Option DropVal), Rep m1 A →
      (∀ q, (∀ t, q ≠ .byType t id) → (∀ t, q ≠ .byCreator t id) → A q = dropAt v s q) →
      (∀ t, A (.byType t id) = none) → (∀ t, A (.byCreator t id) = none) →
      ∃ m', (do
        let m ← rawPut m1 (.byType (typeName a) id) (.pkLen 8)
        let m ← rawPut m (.byCreator a.creator id) (.pkLen 8)
        rawPut m (.drop id) (.drop a)) = .ok m' ∧ Rep m' (dropAt v { s with drops := s.drops.set id a }) := by
    intro m1 A h1 hA hT hC
    obtain ⟨m2, e2, h2⟩ := h1.put (p := .byType (typeName a) id) ⟨typeName_fits a, hid⟩ (.pkLen 8)
    obtain ⟨m3, e3, h3⟩ := h2.put (p := .byCreator a.creator id) ⟨ha, hid⟩ (.pkLen 8)
    obtain ⟨m4, e4, h4⟩ := h3.put (p := .drop id) hid (.drop a)
    refine ⟨m4, ?_, h4.congr ?_⟩
    · simp only [e2, e3, e4, Bind.bind, Except.bind]
    · intro q _
      cases q with
      | drop n =>
        by_cases e : n = id
        · subst e; simp [dropAt]
        · simp [dropAt, e, KV.get_set, eq_comm (a := id) (b := n), hA]
      | byType t n =>
        by_cases e : n = id
        · subst e
          by_cases et : t = typeName a
          · subst et; simp [dropAt]
          · simp [dropAt, et, hT, eq_comm (a := typeName a) (b := t)]
        · rw [if_neg (by simp), if_neg (by simp), if_neg (by simp [e]), hA _ (by simp [e]) (by simp)]
          simp [dropAt, KV.get_set, e, eq_comm (a := id) (b := n)]
      | byCreator t n =>
        by_cases e : n = id
        · subst e
          by_cases et : t = a.creator
          · subst et; simp [dropAt]
          · simp [dropAt, et, hC, eq_comm (a := a.creator) (b := t)]
        · rw [if_neg (by simp), if_neg (by simp [e]), if_neg (by simp), hA _ (by simp) (by simp [e])]
          simp [dropAt, KV.get_set, e, eq_comm (a := id) (b := n)]
      | version => rw [if_neg (by simp), if_neg (by simp), if_neg (by simp), hA _ (by simp) (by simp)]; rfl
      | latest => rw [if_neg (by simp), if_neg (by simp), if_neg (by simp), hA _ (by simp) (by simp)]; rfl
      | label l => rw [if_neg (by simp), if_neg (by simp), if_neg (by simp), hA _ (by simp) (by simp)]; rfl
      | claim n k => rw [if_neg (by simp), if_neg (by simp), if_neg (by simp), hA _ (by simp) (by simp)]; rfl
  unfold rawSaveDrop
  rw [h.mayDrop r hid]
  cases hx : s.drops.get id with
  | none =>
    simp only [Bind.bind, Except.bind]
    exact tail m _ h (fun q _ _ => rfl) (by simp [dropAt, hx]) (by simp [dropAt, hx])
  | some o =>
    obtain ⟨m1, e1, h1⟩ := h.remove (p := .byType (typeName o) id) ⟨typeName_fits o, hid⟩
    obtain ⟨m2, e2, h2⟩ := h1.remove (p := .byCreator o.creator id) ⟨ho o hx, hid⟩
    simp only [Bind.bind, Except.bind, e1, e2]
    refine tail m2 _ h2 ?_ ?_ ?_
    · intro q hq1 hq2
      simp only [if_neg (hq1 _), if_neg (hq2 _)]
    · intro t
      by_cases e : t = typeName o
      · simp [e]
      · simp [e, dropAt, hx, eq_comm (a := typeName o) (b := t)]
    · intro t
      by_cases e : t = o.creator
      · simp [e]
      · simp [e, dropAt, hx, eq_comm (a := o.creator) (b := t)]

theorem Rep.putLatest (h : Rep m (dropAt v s)) (n : Nat) :
    ∃ m', rawPut m .latest (.latest n) = .ok m' ∧ Rep m' (dropAt v { s with latest := n }) := by
  obtain ⟨m', h1, h2⟩ := h.put (p := .latest) trivial (.latest n)
  refine ⟨m', h1, h2.congr ?_⟩
  intro q _
  cases q <;> simp [dropAt]

theorem Rep.putClaim (h : Rep m (dropAt v s)) {id : Nat} (hid : id < 2 ^ 64) (key : String) (n : Nat) :
    ∃ m', rawPut m (.claim id key) (.claim n) = .ok m' ∧ Rep m' (dropAt v { s with claims := s.claims.set (id, key) n }) := by
  obtain ⟨m', h1, h2⟩ := h.put (p := .claim id key) hid (.claim n)
  refine ⟨m', h1, h2.congr ?_⟩
  intro q _
  cases q with
  | claim i k =>
    by_cases e : i = id ∧ k = key
    · obtain ⟨rfl, rfl⟩ := e; simp [dropAt]
    · rw [if_neg (by simpa using e)]
      simp only [dropAt, KV.get_set]
      rw [if_neg (by
        intro h'
        simp only [Prod.mk.injEq] at h'
        exact e (by first | exact h' | exact ⟨h'.1.symm, h'.2.symm⟩))]
  | _ => simp [dropAt]

end

/-- The raw result matches the abstract one. -/
def Matches (v : ContractVersion) : Res (RawOutOf V) → Res Airdrop.Out → Prop
  | .ok (m, ms), .ok (s, ms') => ms = ms' ∧ Rep m (dropAt v s)
  | .error e, .error e' => e = e'
  | _, _ => False

theorem Matches.error {v : ContractVersion} (e : Err) : Matches (V := V) v (.error e) (.error e) := rfl

theorem Matches.bind {v : ContractVersion} {α : Type} (x : Res α) {f : α → Res (RawOutOf V)} {g : α → Res Airdrop.Out}
    (h : ∀ a, x = .ok a → Matches v (f a) (g a)) : Matches v (x >>= f) (x >>= g) := by
  cases x with
  | error e => exact rfl
  | ok a => exact h a rfl

end

end Ibcx.Storage
