import Verif.NumLemmas
/-!
# Lemmas about storage maps

Not part of the model.
-/

namespace Ibcx.KV
variable {K V : Type} [DecidableEq K]

theorem get_eq_none {m : KV K V} {k : K} : m.get k = none ↔ k ∉ m.map (·.1) := by
  induction m with
  | nil => simp [get]
  | cons e m ih =>
    obtain ⟨k', w⟩ := e
    simp only [get, List.map_cons, List.mem_cons, not_or]
    split
    · rename_i h; simp [h]
    · rename_i h
      rw [ih]
      exact ⟨fun x => ⟨fun e => h e.symm, x⟩, fun x => x.2⟩

theorem mem_of_get {m : KV K V} {k : K} {v : V} (h : m.get k = some v) : (k, v) ∈ m := by
  induction m with
  | nil => cases h
  | cons e m ih =>
    obtain ⟨k', w⟩ := e
    simp only [get] at h
    split at h
    · rename_i hk; subst hk; cases h; simp
    · exact List.mem_cons_of_mem _ (ih h)

theorem get_of_mem {m : KV K V} {k : K} {v : V} (hn : (m.map (·.1)).Nodup) (h : (k, v) ∈ m) : m.get k = some v := by
  induction m with
  | nil => cases h
  | cons e m ih =>
    obtain ⟨k', w⟩ := e
    simp only [List.map_cons, List.nodup_cons] at hn
    simp only [get]
    rcases List.mem_cons.1 h with h | h
    · cases h; simp
    · rw [if_neg]
      · exact ih hn.2 h
      · rintro rfl
        exact hn.1 (List.mem_map.2 ⟨_, h, rfl⟩)

theorem keys_set (m : KV K V) (k : K) (v : V) :
    (m.set k v).map (·.1) = if k ∈ m.map (·.1) then m.map (·.1) else m.map (·.1) ++ [k] := by
  induction m with
  | nil => simp [set]
  | cons e m ih =>
    obtain ⟨k', w⟩ := e
    simp only [set]
    split
    · rename_i h; subst h; simp
    · rename_i h
      have h' : ¬ k = k' := fun e => h e.symm
      simp only [List.map_cons, ih, List.mem_cons, h', false_or]
      split <;> simp

theorem nodup_set {m : KV K V} {k : K} {v : V} (hn : (m.map (·.1)).Nodup) : ((m.set k v).map (·.1)).Nodup := by
  rw [keys_set]
  split
  · exact hn
  · rename_i h
    rw [List.nodup_append]
    refine ⟨hn, by simp, ?_⟩
    intro a ha b hb
    simp only [List.mem_singleton] at hb
    subst hb
    rintro rfl
    exact h ha

end Ibcx.KV
