import Verif.Iface.Version
import Verif.NumLemmas
/-!
# Properties of migrations (C55)
-/

namespace Ibcx.Props
open Ibcx Ibcx.Iface

/-- A comparison that is a strict total order. -/
structure GoodCmp {α : Type} (cmp : α → α → Ordering) : Prop where
  eq_iff : ∀ a b, cmp a b = .eq ↔ a = b
  swap : ∀ a b, (cmp a b).swap = cmp b a
  trans : ∀ a b c, cmp a b = .lt → cmp b c = .lt → cmp a c = .lt

private theorem good_ord {α : Type} [Ord α] [Std.TransOrd α] [Std.LawfulEqOrd α] :
    GoodCmp (compare : α → α → Ordering) where
  eq_iff a b := Std.compare_eq_iff_eq
  swap a b := (Std.OrientedOrd.eq_swap (a := b) (b := a)).symm
  trans a b c h1 h2 := Std.TransCmp.lt_trans h1 h2

private theorem good_preId : GoodCmp cmpPreId where
  eq_iff a b := by cases a <;> cases b <;> simp [cmpPreId]
  swap a b := by
    cases a <;> cases b <;> simp only [cmpPreId, Ordering.swap]
    · exact good_ord.swap _ _
    · exact good_ord.swap _ _
  trans a b c := by
    cases a <;> cases b <;> cases c <;> simp only [cmpPreId, reduceCtorEq, false_implies, implies_true, imp_self]
    · exact good_ord.trans _ _ _
    · exact good_ord.trans _ _ _

private theorem then_lt {x y : Ordering} : x.then y = .lt ↔ x = .lt ∨ x = .eq ∧ y = .lt := by
  cases x <;> simp

private theorem good_buildId : GoodCmp cmpBuildId where
  eq_iff a b := by cases a <;> cases b <;> simp [cmpBuildId, Ordering.then_eq_eq]
  swap a b := by
    cases a <;> cases b <;> simp only [cmpBuildId, Ordering.swap_then, Ordering.swap_lt, Ordering.swap_gt]
    · rw [good_ord.swap, good_ord.swap]
    · exact good_ord.swap _ _
  trans a b c := by
    cases a <;> cases b <;> cases c <;> simp only [cmpBuildId, reduceCtorEq, false_implies, implies_true, imp_self]
    · simp only [then_lt, Nat.compare_eq_lt, Nat.compare_eq_eq]
      omega
    · exact good_ord.trans _ _ _

private theorem good_fields {α : Type} {cmp : α → α → Ordering} (g : GoodCmp cmp) : GoodCmp (cmpFields cmp) where
  eq_iff a b := by
    induction a generalizing b with
    | nil => cases b <;> simp [cmpFields]
    | cons x xs ih =>
      cases b with
      | nil => simp [cmpFields]
      | cons y ys => simp [cmpFields, Ordering.then_eq_eq, g.eq_iff, ih]
  swap a b := by
    induction a generalizing b with
    | nil => cases b <;> simp [cmpFields]
    | cons x xs ih =>
      cases b with
      | nil => simp [cmpFields]
      | cons y ys => simp [cmpFields, Ordering.swap_then, g.swap, ih]
  trans a b c := by
    induction a generalizing b c with
    | nil => cases b <;> cases c <;> simp [cmpFields]
    | cons x xs ih =>
      cases b with
      | nil => simp [cmpFields]
      | cons y ys =>
        cases c with
        | nil => simp [cmpFields]
        | cons z zs =>
          simp only [cmpFields, then_lt]
          rintro (h1 | ⟨h1, h2⟩) (h3 | ⟨h3, h4⟩)
          · exact .inl (g.trans _ _ _ h1 h3)
          · rw [g.eq_iff] at h3; subst h3; exact .inl h1
          · rw [g.eq_iff] at h1; subst h1; exact .inl h3
          · rw [g.eq_iff] at h1; subst h1; exact .inr ⟨h3, ih _ _ h2 h4⟩

private theorem good_pre : GoodCmp cmpPre where
  eq_iff a b := by
    cases a <;> cases b <;> simp only [cmpPre, reduceCtorEq]
    rw [(good_fields good_preId).eq_iff]
  swap a b := by
    cases a <;> cases b <;> simp only [cmpPre, Ordering.swap]
    exact (good_fields good_preId).swap _ _
  trans a b c := by
    cases a <;> cases b <;> cases c <;> simp only [cmpPre, reduceCtorEq, false_implies, implies_true, imp_self]
    exact (good_fields good_preId).trans _ _ _

/-- A few version texts. -/
def demoParse (s : String) : Option Version :=
  if s = "0.1.0" then some ⟨0, 1, 0, [], []⟩
  else if s = "0.2.0-rc.1" then some ⟨0, 2, 0, [.text "rc", .num 1], []⟩
  else if s = "0.2.0" then some ⟨0, 2, 0, [], []⟩
  else none

/-- **C55 (order).** The comparison of versions is a strict total order: every two different versions are ordered,
one way only, and the order is transitive. -/
theorem C55_versions_are_totally_ordered : GoodCmp cmpVersion where
  eq_iff a b := by
    cases a; cases b
    simp [cmpVersion, Ordering.then_eq_eq, good_pre.eq_iff, (good_fields good_buildId).eq_iff]
  swap a b := by
    simp only [cmpVersion, Ordering.swap_then, good_ord.swap, good_pre.swap, (good_fields good_buildId).swap]
  trans a b c := by
    simp only [cmpVersion, then_lt, Nat.compare_eq_lt, Nat.compare_eq_eq, good_pre.eq_iff]
    have p := good_pre.trans a.pre b.pre c.pre
    have q := (good_fields good_buildId).trans a.build b.build c.build
    grind

/-- A pre-release is below its release, and a build part is above none. -/
example : cmpVersion ⟨0, 2, 0, [.text "rc", .num 1], []⟩ ⟨0, 2, 0, [], []⟩ = .lt ∧
    cmpVersion ⟨0, 2, 0, [.num 10], []⟩ ⟨0, 2, 0, [.text "a"], []⟩ = .lt ∧
    cmpVersion ⟨0, 2, 0, [], [.num 1 1]⟩ ⟨0, 2, 0, [], []⟩ = .gt := by decide +kernel

/-- Precedence of pre-release identifiers: numbers by value, texts by their characters, every number below every text.
Specification, independent of `cmpPreId`. -/
inductive PreIdBelow : PreId → PreId → Prop where
  | nums {a b : Nat} (h : a < b) : PreIdBelow (.num a) (.num b)
  | numText (a : Nat) (t : String) : PreIdBelow (.num a) (.text t)
  | texts {s t : String} (h : s < t) : PreIdBelow (.text s) (.text t)

/-- Precedence of build identifiers: numbers by value and then by the number of digits, texts by their characters,
every number below every text. -/
inductive BuildIdBelow : BuildId → BuildId → Prop where
  | nums {a b l k : Nat} (h : a < b) : BuildIdBelow (.num a l) (.num b k)
  | zeros {a l k : Nat} (h : l < k) : BuildIdBelow (.num a l) (.num a k)
  | numText (a l : Nat) (t : String) : BuildIdBelow (.num a l) (.text t)
  | texts {s t : String} (h : s < t) : BuildIdBelow (.text s) (.text t)

/-- A row of identifiers is below another when it is a proper beginning of it or is below at the first difference. -/
def RowBelow {α : Type} (below : α → α → Prop) (a b : List α) : Prop :=
  (∃ y ys, b = a ++ y :: ys) ∨ ∃ p x y xs ys, a = p ++ x :: xs ∧ b = p ++ y :: ys ∧ below x y

/-- Precedence of versions. -/
def VersionBelow (a b : Version) : Prop :=
  a.major < b.major ∨ a.major = b.major ∧
    (a.minor < b.minor ∨ a.minor = b.minor ∧
      (a.patch < b.patch ∨ a.patch = b.patch ∧
        ((a.pre ≠ [] ∧ b.pre = [] ∨ a.pre ≠ [] ∧ b.pre ≠ [] ∧ RowBelow PreIdBelow a.pre b.pre) ∨
          a.pre = b.pre ∧ RowBelow BuildIdBelow a.build b.build)))

private theorem string_lt {s t : String} : compare s t = .lt ↔ s < t := by
  show compareOfLessAndEq s t = .lt ↔ _
  unfold compareOfLessAndEq
  split
  · simp_all
  · split <;> simp_all

private theorem preId_lt (a b : PreId) : cmpPreId a b = .lt ↔ PreIdBelow a b := by
  constructor
  · intro h
    cases a <;> cases b <;> simp only [cmpPreId, reduceCtorEq, Nat.compare_eq_lt, string_lt] at h
    · exact .nums h
    · exact .numText _ _
    · exact .texts h
  · intro h
    cases h with
    | nums h => exact Nat.compare_eq_lt.2 h
    | numText => rfl
    | texts h => exact string_lt.2 h

private theorem buildId_lt (a b : BuildId) : cmpBuildId a b = .lt ↔ BuildIdBelow a b := by
  constructor
  · intro h
    cases a <;> cases b <;>
      simp only [cmpBuildId, reduceCtorEq, then_lt, Nat.compare_eq_lt, Nat.compare_eq_eq, string_lt] at h
    · rcases h with h | ⟨rfl, h⟩
      · exact .nums h
      · exact .zeros h
    · exact .numText _ _ _
    · exact .texts h
  · intro h
    cases h with
    | nums h => exact then_lt.2 (.inl (Nat.compare_eq_lt.2 h))
    | zeros h => exact then_lt.2 (.inr ⟨Nat.compare_eq_eq.2 rfl, Nat.compare_eq_lt.2 h⟩)
    | numText => rfl
    | texts h => exact string_lt.2 h

private theorem fields_lt {α : Type} {cmp : α → α → Ordering} {below : α → α → Prop} (g : GoodCmp cmp)
    (hb : ∀ a b, cmp a b = .lt ↔ below a b) (a b : List α) : cmpFields cmp a b = .lt ↔ RowBelow below a b := by
  induction a generalizing b with
  | nil =>
    cases b with
    | nil => simp [cmpFields, RowBelow]
    | cons y ys => simp only [cmpFields, true_iff]; exact .inl ⟨y, ys, rfl⟩
  | cons x xs ih =>
    cases b with
    | nil => simp [cmpFields, RowBelow]
    | cons y ys =>
      rw [cmpFields, then_lt, g.eq_iff, hb, ih]
      constructor
      · rintro (h | ⟨rfl, ⟨z, zs, rfl⟩ | ⟨p, u, v, us, vs, rfl, rfl, h⟩⟩)
        · exact .inr ⟨[], x, y, xs, ys, rfl, rfl, h⟩
        · exact .inl ⟨z, zs, rfl⟩
        · exact .inr ⟨x :: p, u, v, us, vs, rfl, rfl, h⟩
      · rintro (⟨z, zs, h⟩ | ⟨p, u, v, us, vs, h1, h2, h⟩)
        · rw [List.cons_append, List.cons.injEq] at h
          exact .inr ⟨h.1.symm, .inl ⟨z, zs, h.2⟩⟩
        · cases p with
          | nil =>
            rw [List.nil_append, List.cons.injEq] at h1 h2
            rw [h1.1, h2.1]; exact .inl h
          | cons w p =>
            rw [List.cons_append, List.cons.injEq] at h1 h2
            exact .inr ⟨h1.1.trans h2.1.symm, .inr ⟨p, u, v, us, vs, h1.2, h2.2, h⟩⟩

private theorem pre_lt (a b : List PreId) :
    cmpPre a b = .lt ↔ a ≠ [] ∧ b = [] ∨ a ≠ [] ∧ b ≠ [] ∧ RowBelow PreIdBelow a b := by
  cases a <;> cases b <;> simp only [cmpPre, reduceCtorEq, ne_eq, not_true_eq_false, not_false_eq_true, false_and,
    true_and, and_false, or_false, false_or, and_true]
  exact fields_lt good_preId preId_lt _ _

/-- **C55 (precedence).** A version is below another exactly when the numbers, then the pre-release, then the build
metadata decide so: numbers by value in the order major, minor, patch; a pre-release below the release; otherwise the
first different identifier decides, a missing one being below all. -/
theorem C55_precedence (a b : Version) : cmpVersion a b = .lt ↔ VersionBelow a b := by
  simp only [cmpVersion, then_lt, Nat.compare_eq_lt, Nat.compare_eq_eq, good_pre.eq_iff, pre_lt,
    fields_lt good_buildId buildId_lt, VersionBelow]

/-- 1.0.0-alpha < 1.0.0-alpha.1 < 1.0.0-alpha.beta, and 1.0.0+0 < 1.0.0+00. -/
example : VersionBelow ⟨1, 0, 0, [.text "alpha"], []⟩ ⟨1, 0, 0, [.text "alpha", .num 1], []⟩ ∧
    VersionBelow ⟨1, 0, 0, [.text "alpha", .num 1], []⟩ ⟨1, 0, 0, [.text "alpha", .text "beta"], []⟩ ∧
    VersionBelow ⟨1, 0, 0, [], [.num 0 1]⟩ ⟨1, 0, 0, [], [.num 0 2]⟩ ∧
    ¬ VersionBelow ⟨1, 0, 0, [.text "alpha", .text "beta"], []⟩ ⟨1, 0, 0, [.text "alpha", .num 1], []⟩ := by
  simp only [← C55_precedence]
  decide +kernel

/-- **C55 (numbers).** The numbers decide first, in the order major, minor, patch; with equal numbers a pre-release is
below the release. -/
theorem C55_numbers_decide (a b : Version) :
    (a.major < b.major → cmpVersion a b = .lt) ∧
    (a.major = b.major → a.minor < b.minor → cmpVersion a b = .lt) ∧
    (a.major = b.major → a.minor = b.minor → a.patch < b.patch → cmpVersion a b = .lt) ∧
    (a.major = b.major → a.minor = b.minor → a.patch = b.patch → a.pre ≠ [] → b.pre = [] → cmpVersion a b = .lt) := by
  simp only [cmpVersion, then_lt, Nat.compare_eq_lt, Nat.compare_eq_eq]
  refine ⟨fun h => .inl h, fun h1 h2 => .inr ⟨h1, .inl h2⟩, fun h1 h2 h3 => .inr ⟨h1, .inr ⟨h2, .inl h3⟩⟩,
    fun h1 h2 h3 h4 h5 => .inr ⟨h1, .inr ⟨h2, .inr ⟨h3, .inl ?_⟩⟩⟩⟩
  rw [h5]
  cases h : a.pre with
  | nil => exact absurd h h4
  | cons x xs => rfl

/-- 1.2.3 is below 2.0.0, 1.3.0 and 1.2.10. -/
example : cmpVersion ⟨1, 2, 3, [], []⟩ ⟨2, 0, 0, [], []⟩ = .lt ∧ cmpVersion ⟨1, 2, 3, [], []⟩ ⟨1, 3, 0, [], []⟩ = .lt ∧
    cmpVersion ⟨1, 2, 3, [], []⟩ ⟨1, 2, 10, [], []⟩ = .lt := by decide +kernel

/-- **C55 (one migration).** A migration without force is accepted exactly when a version of the same contract is
stored and both versions are well formed with the new one greater; it then stores the new version. -/
theorem C55_unforced_migration (parse : String → Option Version) (stored : Option ContractVersion)
    (name version : String) (force : Option Bool) (hf : force ≠ some true) (st' : Option ContractVersion) :
    migrate parse stored name version force = .ok st' ↔
      ∃ old cv nv, stored = some { contract := name, version := old } ∧ parse old = some cv ∧
        parse version = some nv ∧ cmpVersion cv nv = .lt ∧ st' = some { contract := name, version := version } := by
  have hf' : force.getD false = false := by
    cases force with
    | none => rfl
    | some b => cases b with
      | false => rfl
      | true => exact absurd rfl hf
  simp only [migrate, hf', if_true, storeVersion]
  constructor
  · intro h
    split at h
    · cases h
    rename_i st
    split at h
    · cases h
    rename_i hn
    split at h
    · cases h
    rename_i cv hcv
    split at h
    · cases h
    rename_i nv hnv
    split at h
    · cases h
    rename_i hlt
    push Not at hn hlt
    cases h
    exact ⟨st.version, cv, nv, by rw [← hn], hcv, hnv, hlt, rfl⟩
  · rintro ⟨old, cv, nv, rfl, h1, h2, h3, rfl⟩
    simp [h1, h2, h3]

/-- A newer version is accepted, the same version and another contract are not. -/
example : migrate demoParse (some ⟨"core", "0.1.0"⟩) "core" "0.2.0-rc.1" none = .ok (some ⟨"core", "0.2.0-rc.1"⟩) ∧
    (migrate demoParse (some ⟨"core", "0.1.0"⟩) "core" "0.1.0" (some false)).toOption = none ∧
    (migrate demoParse (some ⟨"core", "0.1.0"⟩) "airdrop" "0.2.0" none).toOption = none := by
  decide +kernel

/-- **C55.** Along any sequence of migration requests without force, accepted or not, the contract name stays the
same, and the stored version either is the original one (nothing was accepted) or is a greater one. -/
theorem C55_versions_only_move_forward (parse : String → Option Version) (start : Option ContractVersion)
    (ms : List Migration) (hf : ∀ m ∈ ms, m.force ≠ some true) :
    ms.foldl (migrateStep parse) start = start ∨
      ∃ c v w cv cw, start = some ⟨c, v⟩ ∧ ms.foldl (migrateStep parse) start = some ⟨c, w⟩ ∧
        parse v = some cv ∧ parse w = some cw ∧ cmpVersion cv cw = .lt := by
  induction ms generalizing start with
  | nil => exact .inl rfl
  | cons m ms ih =>
    have hm := hf m (by simp)
    have ih' := fun st => ih st (fun x hx => hf x (by simp [hx]))
    simp only [List.foldl_cons]
    cases hx : migrate parse start m.name m.version m.force with
    | error e =>
      have : migrateStep parse start m = start := by simp only [migrateStep, hx]
      rw [this]; exact ih' start
    | ok st =>
      have hs : migrateStep parse start m = st := by simp only [migrateStep, hx]
      rw [hs]
      obtain ⟨old, cv, nv, rfl, h1, h2, h3, rfl⟩ := (C55_unforced_migration parse _ _ _ _ hm _).1 hx
      right
      rcases ih' (some ⟨m.name, m.version⟩) with h | ⟨c, v, w, cv', cw, e1, e2, e3, e4, e5⟩
      · exact ⟨m.name, old, m.version, cv, nv, rfl, h, h1, h2, h3⟩
      · cases e1
        rw [h2] at e3
        cases e3
        exact ⟨_, old, w, cv, cw, rfl, e2, h1, e4, C55_versions_are_totally_ordered.trans _ _ _ h3 e5⟩

/-- A pre-release and then the release are accepted; the old version and a malformed one are not. -/
example : [⟨"core", "0.2.0-rc.1", none⟩, ⟨"core", "0.2.0", some false⟩, ⟨"core", "0.1.0", none⟩,
      ⟨"core", "x", none⟩].foldl (migrateStep demoParse) (some ⟨"core", "0.1.0"⟩) = some ⟨"core", "0.2.0"⟩ := by
  decide +kernel

/-- **C55 (every accepted step).** In particular an accepted unforced migration never stores a version that was
stored before: going back needs force. -/
theorem C55_no_return (parse : String → Option Version) (start : Option ContractVersion) (m : Migration)
    (ms : List Migration) (hm : m.force ≠ some true) (hf : ∀ m ∈ ms, m.force ≠ some true)
    {st : Option ContractVersion} (h : migrate parse start m.name m.version m.force = .ok st) :
    ms.foldl (migrateStep parse) st ≠ start := by
  obtain ⟨old, cv, nv, rfl, h1, h2, h3, rfl⟩ := (C55_unforced_migration parse _ _ _ _ hm _).1 h
  have irr : ∀ v, cmpVersion v v ≠ .lt := by
    intro v hv
    have := (C55_versions_are_totally_ordered.eq_iff v v).2 rfl
    rw [this] at hv; cases hv
  rcases C55_versions_only_move_forward parse (some ⟨m.name, m.version⟩) ms hf with e | ⟨c, v, w, cv', cw, e1, e2, e3, e4, e5⟩
  · rw [e]
    intro h'
    cases h'
    rw [h1] at h2; cases h2
    exact irr _ h3
  · cases e1
    rw [e2]
    intro h'
    cases h'
    rw [h2] at e3; cases e3
    rw [h1] at e4; cases e4
    exact irr _ (C55_versions_are_totally_ordered.trans _ _ _ h3 e5)

/-- After the pre-release the first version is refused. -/
example : migrate demoParse (some ⟨"core", "0.1.0"⟩) "core" "0.2.0-rc.1" none = .ok (some ⟨"core", "0.2.0-rc.1"⟩) ∧
    [⟨"core", "0.1.0", none⟩].foldl (migrateStep demoParse) (some ⟨"core", "0.2.0-rc.1"⟩) =
      some ⟨"core", "0.2.0-rc.1"⟩ := by
  decide +kernel

/-- **C55 (force).** With force every migration is accepted, whatever was stored. -/
theorem C55_force_accepts_anything (parse : String → Option Version) (stored : Option ContractVersion)
    (name version : String) :
    migrate parse stored name version (some true) = .ok (some { contract := name, version := version }) := rfl

/-- A pre-release and then the release are accepted; the old version and a malformed one are not. -/
example : [⟨"core", "0.2.0-rc.1", none⟩, ⟨"core", "0.2.0", some false⟩, ⟨"core", "0.1.0", none⟩,
      ⟨"core", "x", none⟩].foldl (migrateStep demoParse) (some ⟨"core", "0.1.0"⟩) = some ⟨"core", "0.2.0"⟩ ∧
    migrate demoParse (some ⟨"core", "0.1.0"⟩) "core" "0.2.0-rc.1" none = .ok (some ⟨"core", "0.2.0-rc.1"⟩) ∧
    (migrate demoParse (some ⟨"core", "0.1.0"⟩) "airdrop" "0.2.0" none).toOption = none := by
  decide +kernel

end Ibcx.Props
