import Verif.NumLemmas
import Verif.Core.Units
/-!
# Lemmas about units

Not part of the model: facts about `Verif/Core/Units.lean` used by the proofs.
-/

namespace Ibcx.Core.Units
open Ibcx

@[simp] theorem getKey_nil (k : Denom) : getKey [] k = none := rfl

@[simp] theorem getKey!_eq_ok {us : Units} {k : Denom} {v : Nat} :
    getKey! us k = .ok v ↔ getKey us k = some v := by
  unfold getKey!; split <;> simp_all

theorem getKey_mem {us : Units} {k : Denom} {v : Nat} (h : getKey us k = some v) : (k, v) ∈ us := by
  induction us with
  | nil => simp at h
  | cons e us ih =>
    obtain ⟨d, u⟩ := e
    unfold getKey at h
    split at h
    · simp_all
    · exact List.mem_cons_of_mem _ (ih h)

theorem getKey_eq_none {us : Units} {k : Denom} : getKey us k = none ↔ k ∉ denoms us := by
  induction us with
  | nil => simp [denoms]
  | cons e us ih =>
    obtain ⟨d, u⟩ := e
    unfold getKey
    by_cases h : d = k
    · simp [h, denoms]
    · rw [if_neg h, ih]
      have : ¬ k = d := fun e => h e.symm
      simp [denoms, this]

theorem getKey_isSome {us : Units} {k : Denom} : (∃ v, getKey us k = some v) ↔ k ∈ denoms us := by
  have := @getKey_eq_none us k
  cases h : getKey us k <;> simp_all

theorem mem_getKey {us : Units} {k : Denom} {v : Nat} (hn : (denoms us).Nodup) (h : (k, v) ∈ us) :
    getKey us k = some v := by
  induction us with
  | nil => simp at h
  | cons e us ih =>
    obtain ⟨d, u⟩ := e
    simp only [denoms, List.map_cons, List.nodup_cons] at hn
    unfold getKey
    rcases List.mem_cons.1 h with h | h
    · simp_all
    · have : d ≠ k := by
        rintro rfl
        exact hn.1 (List.mem_map.2 ⟨_, h, rfl⟩)
      rw [if_neg this]
      exact ih hn.2 h

theorem getKey_iff_mem {us : Units} {k : Denom} {v : Nat} (hn : (denoms us).Nodup) :
    getKey us k = some v ↔ (k, v) ∈ us :=
  ⟨getKey_mem, mem_getKey hn⟩

/-- What `add_key` does, for every input. -/
theorem addKey_eq_ok {us us' : Units} {k : Denom} {v : Nat} :
    addKey us k v = .ok us' →
      (∀ d, getKey us' d = if d = k then some ((getKey us k).getD 0 + v) else getKey us d) ∧
      denoms us' = (if k ∈ denoms us then denoms us else denoms us ++ [k]) ∧
      (k ∈ denoms us → (getKey us k).getD 0 + v < U128) := by
  induction us generalizing us' with
  | nil =>
    intro h
    simp only [addKey, Except.ok.injEq] at h
    subst h
    simp [getKey, denoms, eq_comm]
  | cons e us ih =>
    obtain ⟨d0, u0⟩ := e
    intro h
    unfold addKey at h
    by_cases hd : d0 = k
    · rw [if_pos hd] at h
      simp at h
      obtain ⟨hlt, rfl⟩ := h
      subst hd
      refine ⟨?_, ?_, ?_⟩
      · intro d
        by_cases h' : d = d0
        · simp [getKey, h']
        · have : ¬ d0 = d := fun e => h' e.symm
          simp [getKey, h', this]
      · simp [denoms]
      · simp [getKey]; omega
    · rw [if_neg hd] at h
      simp at h
      obtain ⟨w, hw, rfl⟩ := h
      obtain ⟨h1, h2, h3⟩ := ih hw
      have hk : ¬ k = d0 := fun e => hd e.symm
      refine ⟨?_, ?_, ?_⟩
      · intro d
        have := h1 d
        by_cases h' : d0 = d
        · subst h'
          simp [getKey, hd]
        · simp [getKey, hd, h', this]
      · have : denoms ((d0, u0) :: w) = d0 :: denoms w := rfl
        rw [this, h2]
        by_cases hm : k ∈ denoms us
        · have : k ∈ denoms ((d0, u0) :: us) := List.mem_cons_of_mem _ hm
          rw [if_pos hm, if_pos this]; rfl
        · have : k ∉ denoms ((d0, u0) :: us) := by
            intro hm'; rcases List.mem_cons.1 hm' with h | h
            · exact hk h
            · exact hm h
          rw [if_neg hm, if_neg this]; rfl
      · intro hm
        rcases List.mem_cons.1 hm with h | h
        · exact absurd h hk
        · simpa [getKey, hd] using h3 h

/-- When `add_key` succeeds. -/
theorem addKey_ok {us : Units} {k : Denom} {v : Nat}
    (h : k ∈ denoms us → (getKey us k).getD 0 + v < U128) : ∃ us', addKey us k v = .ok us' := by
  induction us with
  | nil => exact ⟨_, rfl⟩
  | cons e us ih =>
    obtain ⟨d0, u0⟩ := e
    unfold addKey
    by_cases hd : d0 = k
    · rw [if_pos hd]
      have := h (by simp [denoms, hd])
      simp [getKey, hd] at this
      refine ⟨(d0, u0 + v) :: us, ?_⟩
      simp; omega
    · rw [if_neg hd]
      obtain ⟨w, hw⟩ := ih (fun hm => by
        have := h (List.mem_cons_of_mem _ hm)
        simpa [getKey, hd] using this)
      exact ⟨(d0, u0) :: w, by simp [hw]⟩

theorem subKey_eq_ok {us us' : Units} {k : Denom} {v : Nat} :
    subKey us k v = .ok us' →
      ∃ u, getKey us k = some u ∧ v ≤ u ∧
      (∀ d, getKey us' d = if d = k then some (u - v) else getKey us d) ∧
      denoms us' = denoms us := by
  induction us generalizing us' with
  | nil => simp [subKey]
  | cons e us ih =>
    obtain ⟨d0, u0⟩ := e
    intro h
    unfold subKey at h
    by_cases hd : d0 = k
    · rw [if_pos hd] at h
      simp at h
      obtain ⟨hlt, rfl⟩ := h
      subst hd
      refine ⟨u0, by simp [getKey], hlt, ?_, by simp [denoms]⟩
      intro d
      by_cases h' : d = d0
      · simp [getKey, h']
      · have : ¬ d0 = d := fun e => h' e.symm
        simp [getKey, h', this]
    · rw [if_neg hd] at h
      simp at h
      obtain ⟨w, hw, rfl⟩ := h
      obtain ⟨u, h1, h2, h3, h4⟩ := ih hw
      refine ⟨u, by simp [getKey, hd, h1], h2, ?_, ?_⟩
      · intro d
        have := h3 d
        by_cases h' : d0 = d
        · subst h'
          simp [getKey, hd]
        · simp [getKey, h', this]
      · have : denoms ((d0, u0) :: w) = d0 :: denoms w := rfl
        rw [this, h4]; rfl

theorem subKey_ok {us : Units} {k : Denom} {u v : Nat}
    (h : getKey us k = some u) (hv : v ≤ u) : ∃ us', subKey us k v = .ok us' := by
  induction us with
  | nil => simp at h
  | cons e us ih =>
    obtain ⟨d0, u0⟩ := e
    unfold subKey
    by_cases hd : d0 = k
    · rw [if_pos hd]
      simp [getKey, hd] at h
      exact ⟨(d0, u0 - v) :: us, by simp; omega⟩
    · rw [if_neg hd]
      simp [getKey, hd] at h
      obtain ⟨w, hw⟩ := ih h
      exact ⟨(d0, u0) :: w, by simp [hw]⟩

theorem popKey_eq_some {us : Units} {k : Denom} {u : Nat} {rest : Units} :
    popKey us k = some (u, rest) →
      getKey us k = some u ∧ (∀ d, d ≠ k → getKey rest d = getKey us d) := by
  induction us generalizing u rest with
  | nil => simp [popKey]
  | cons e us ih =>
    obtain ⟨d0, u0⟩ := e
    intro h
    unfold popKey at h
    by_cases hd : d0 = k
    · rw [if_pos hd] at h
      simp at h
      obtain ⟨rfl, rfl⟩ := h
      refine ⟨by simp [getKey, hd], ?_⟩
      intro d hne
      have : ¬ d0 = d := fun e => hne (by rw [← e, hd])
      simp [getKey, this]
    · rw [if_neg hd] at h
      split at h
      · rename_i w us' hw
        simp at h
        obtain ⟨rfl, rfl⟩ := h
        obtain ⟨h1, h2⟩ := ih hw
        refine ⟨by simp [getKey, hd, h1], ?_⟩
        intro d hne
        by_cases h' : d0 = d
        · simp [getKey, h']
        · simp [getKey, h', h2 d hne]
      · simp at h

theorem popKey_eq_none {us : Units} {k : Denom} : popKey us k = none ↔ k ∉ denoms us := by
  induction us with
  | nil => simp [popKey, denoms]
  | cons e us ih =>
    obtain ⟨d0, u0⟩ := e
    unfold popKey
    by_cases hd : d0 = k
    · simp [hd, denoms]
    · rw [if_neg hd]
      have : ¬ k = d0 := fun e => hd e.symm
      have e2 : k ∉ denoms ((d0, u0) :: us) ↔ k ∉ denoms us := by simp [denoms, this]
      rw [e2, ← ih]
      split <;> simp_all

theorem hasDup_eq_false {seen : List Denom} {us : Units} :
    hasDup seen us = false ↔ (denoms us).Nodup ∧ ∀ d ∈ denoms us, d ∉ seen := by
  induction us generalizing seen with
  | nil => simp [hasDup, denoms]
  | cons e us ih =>
    obtain ⟨d, u⟩ := e
    unfold hasDup
    have hden : denoms ((d, u) :: us) = d :: denoms us := rfl
    rw [hden]
    by_cases h : d ∈ seen
    · simp [h]
    · rw [if_neg h, ih, List.nodup_cons]
      constructor
      · rintro ⟨h1, h2⟩
        refine ⟨⟨fun hm => h2 d hm (by simp), h1⟩, ?_⟩
        intro x hx
        rcases List.mem_cons.1 hx with rfl | hx
        · exact h
        · exact fun hs => h2 x hx (by simp [hs])
      · rintro ⟨⟨h1, h2⟩, h3⟩
        refine ⟨h2, ?_⟩
        intro x hx hs
        rcases List.mem_cons.1 hs with rfl | hs
        · exact h1 hx
        · exact h3 x (by simp [hx]) hs

@[simp] theorem checkDuplicate_eq_false {us : Units} :
    checkDuplicate us = false ↔ (denoms us).Nodup := by
  simp [checkDuplicate, hasDup_eq_false]

theorem checkDuplicate_eq_true {us : Units} :
    checkDuplicate us = true ↔ ¬ (denoms us).Nodup := by
  rw [← checkDuplicate_eq_false]; exact (Bool.not_eq_false _).symm.to_iff

@[simp] theorem denoms_append (a b : Units) : denoms (a ++ b) = denoms a ++ denoms b := by
  simp [denoms]

@[simp] theorem calcRequire_eq_ok {us : Units} {amount : Nat} {r : List Coin} :
    calcRequire us amount = .ok r ↔
      (∀ e ∈ us, e.2 * amount / ONE < U128) ∧ r = us.map fun e => ⟨e.1, e.2 * amount / ONE⟩ := by
  unfold calcRequire
  rw [mapM_eq_ok_map (P := fun e => e.2 * amount / ONE < U128)
    (g := fun e => (⟨e.1, e.2 * amount / ONE⟩ : Coin))]
  intro e c
  obtain ⟨d, u⟩ := e
  simp
  grind

theorem checkEmpty_eq_true {us : Units} : checkEmpty us = true ↔ ∀ e ∈ us, e.2 = 0 := by
  simp [checkEmpty]

/-! ### calc_refund_amount -/

theorem takeRequired_eq_ok {L L' : List (Coin × Bool)} {c : Coin}
    (hn : (L.map (·.1.denom)).Nodup) :
    takeRequired L c = .ok L' ↔
      (∃ p ∈ L, p.1.denom = c.denom ∧ c.amount ≤ p.1.amount) ∧
      L' = L.map fun p => if p.1.denom = c.denom then (⟨p.1.denom, p.1.amount - c.amount⟩, true) else p := by
  induction L generalizing L' with
  | nil => simp [takeRequired]
  | cons p L ih =>
    obtain ⟨f, m⟩ := p
    simp only [List.map_cons, List.nodup_cons] at hn
    unfold takeRequired
    by_cases h : f.denom = c.denom
    · rw [if_pos h]
      have hmap : L.map (fun p => if p.1.denom = c.denom then
          ((⟨p.1.denom, p.1.amount - c.amount⟩, true) : Coin × Bool) else p) = L := by
        conv => rhs; rw [← List.map_id L]
        apply List.map_congr_left
        intro q hq
        have : q.1.denom ≠ c.denom := by
          intro he
          apply hn.1
          rw [h, ← he]
          exact List.mem_map.2 ⟨q, hq, rfl⟩
        simp [this]
      rw [List.map_cons, hmap]
      simp only [bind_eq_ok, sub_eq_ok, if_pos h]
      constructor
      · rintro ⟨a, ⟨hle, rfl⟩, he⟩
        cases he
        exact ⟨⟨(f, m), by simp, h, hle⟩, rfl⟩
      · rintro ⟨⟨q, hq, hqd, hqa⟩, rfl⟩
        rcases List.mem_cons.1 hq with rfl | hq
        · exact ⟨_, ⟨hqa, rfl⟩, rfl⟩
        · exact absurd (List.mem_map.2 ⟨q, hq, hqd.trans h.symm⟩) hn.1
    · rw [if_neg h, List.map_cons]
      simp only [bind_eq_ok, if_neg h]
      constructor
      · rintro ⟨w, hw, he⟩
        cases he
        obtain ⟨⟨q, hq, h1, h2⟩, rfl⟩ := (ih hn.2).1 hw
        exact ⟨⟨q, by simp [hq], h1, h2⟩, rfl⟩
      · rintro ⟨⟨q, hq, hqd, hqa⟩, rfl⟩
        rcases List.mem_cons.1 hq with rfl | hq
        · exact absurd hqd h
        · exact ⟨_, (ih hn.2).2 ⟨⟨q, hq, hqd, hqa⟩, rfl⟩, rfl⟩

/-- Coins of `req` with the denom of a fund. -/
theorem amountOf_of_nodup {cs : List Coin} {c : Coin} (hn : (cs.map (·.denom)).Nodup) (h : c ∈ cs) :
    amountOf c.denom cs = c.amount := by
  induction cs with
  | nil => simp at h
  | cons x cs ih =>
    simp only [List.map_cons, List.nodup_cons] at hn
    rcases List.mem_cons.1 h with rfl | h
    · have : amountOf c.denom cs = 0 := by
        have hnm := hn.1
        clear ih hn h
        induction cs with
        | nil => rfl
        | cons y cs ih =>
          simp only [List.map_cons, List.mem_cons, not_or] at hnm
          have : ¬ y.denom = c.denom := fun e => hnm.1 e.symm
          simp [this, ih hnm.2]
      simp [this]
    · have : x.denom ≠ c.denom := by
        intro e; apply hn.1; rw [e]; exact List.mem_map.2 ⟨c, h, rfl⟩
      simp [this, ih hn.2 h]

theorem amountOf_eq_zero {cs : List Coin} {d : Denom} (h : d ∉ cs.map (·.denom)) :
    amountOf d cs = 0 := by
  induction cs with
  | nil => rfl
  | cons y cs ih =>
    simp only [List.map_cons, List.mem_cons, not_or] at h
    have : ¬ y.denom = d := fun e => h.1 e.symm
    simp [this, ih h.2]

theorem foldTake_eq_ok {req : List Coin} {L L' : List (Coin × Bool)}
    (hr : (req.map (·.denom)).Nodup) (hn : (L.map (·.1.denom)).Nodup) :
    req.foldlM takeRequired L = .ok L' ↔
      (∀ c ∈ req, ∃ p ∈ L, p.1.denom = c.denom ∧ c.amount ≤ p.1.amount) ∧
      L' = L.map fun p => (⟨p.1.denom, p.1.amount - amountOf p.1.denom req⟩,
        p.2 || decide (p.1.denom ∈ req.map (·.denom))) := by
  induction req generalizing L L' with
  | nil => simp [pure, Except.pure]; exact eq_comm
  | cons c req ih =>
    simp only [List.map_cons, List.nodup_cons] at hr
    have hnt : ∀ (L1 : List (Coin × Bool)), L1 = (L.map fun p => if p.1.denom = c.denom then
        ((⟨p.1.denom, p.1.amount - c.amount⟩, true) : Coin × Bool) else p) →
        L1.map (·.1.denom) = L.map (·.1.denom) := by
      rintro L1 rfl
      rw [List.map_map]
      apply List.map_congr_left
      intro p _
      simp only [Function.comp]
      split <;> rfl
    rw [List.foldlM_cons, bind_eq_ok]
    constructor
    · rintro ⟨L1, h1, h2⟩
      rw [takeRequired_eq_ok hn] at h1
      obtain ⟨hc, hL1⟩ := h1
      have hn1 := hnt L1 hL1
      rw [ih hr.2 (by rw [hn1]; exact hn)] at h2
      obtain ⟨hreq, rfl⟩ := h2
      refine ⟨?_, ?_⟩
      · intro x hx
        rcases List.mem_cons.1 hx with rfl | hx
        · exact hc
        · obtain ⟨p, hp, hpd, hpa⟩ := hreq x hx
          rw [hL1] at hp
          obtain ⟨q, hq, rfl⟩ := List.mem_map.1 hp
          have hne : c.denom ≠ x.denom := by
            intro e; apply hr.1; rw [e]; exact List.mem_map.2 ⟨x, hx, rfl⟩
          by_cases hqc : q.1.denom = c.denom
          · rw [if_pos hqc] at hpd
            exact absurd (hqc.symm.trans hpd) hne
          · rw [if_neg hqc] at hpd hpa
            exact ⟨q, hq, hpd, hpa⟩
      · rw [hL1, List.map_map]
        apply List.map_congr_left
        intro p _
        simp only [Function.comp]
        by_cases hpc : p.1.denom = c.denom
        · have h0 : amountOf p.1.denom req = 0 := by
            rw [hpc]; exact amountOf_eq_zero hr.1
          simp [hpc]
          rw [← hpc, h0]; simp
        · have : ¬ c.denom = p.1.denom := fun e => hpc e.symm
          simp [hpc, this]
    · rintro ⟨hreq, rfl⟩
      refine ⟨_, (takeRequired_eq_ok hn).2 ⟨hreq c (by simp), rfl⟩, ?_⟩
      rw [ih hr.2 (by rw [hnt _ rfl]; exact hn)]
      refine ⟨?_, ?_⟩
      · intro x hx
        obtain ⟨p, hp, hpd, hpa⟩ := hreq x (by simp [hx])
        have hne : p.1.denom ≠ c.denom := by
          intro e; apply hr.1; rw [← e, hpd]; exact List.mem_map.2 ⟨x, hx, rfl⟩
        exact ⟨p, List.mem_map.2 ⟨p, hp, by simp [hne]⟩, hpd, hpa⟩
      · rw [List.map_map]
        apply List.map_congr_left
        intro p _
        simp only [Function.comp]
        by_cases hpc : p.1.denom = c.denom
        · have h0 : amountOf p.1.denom req = 0 := by
            rw [hpc]; exact amountOf_eq_zero hr.1
          simp [hpc]
          rw [← hpc, h0]; simp
        · have : ¬ c.denom = p.1.denom := fun e => hpc e.symm
          simp [hpc, this]

/-- Exact behaviour of `calc_refund_amount` on duplicate-free inputs. -/
theorem calcRefund_eq_ok {us : Units} {funds r : List Coin} {amount : Nat}
    (hn : (denoms us).Nodup) (hf : (funds.map (·.denom)).Nodup) :
    calcRefund us funds amount = .ok r ↔
      (∀ e ∈ us, e.2 * amount / ONE < U128) ∧
      (∀ e ∈ us, ∃ c ∈ funds, c.denom = e.1 ∧ max (e.2 * amount / ONE) 1 ≤ c.amount) ∧
      (∀ c ∈ funds, c.denom ∈ denoms us) ∧
      r = (funds.map fun c =>
        (⟨c.denom, c.amount - max ((getKey us c.denom).getD 0 * amount / ONE) 1⟩ : Coin)).filter
          (fun c => c.amount ≠ 0) := by
  have hreq : ∀ (req : List Coin), req = us.map (fun e => (⟨e.1, e.2 * amount / ONE⟩ : Coin)) →
      (req.map fun c => (⟨c.denom, max c.amount 1⟩ : Coin))
        = us.map (fun e => (⟨e.1, max (e.2 * amount / ONE) 1⟩ : Coin)) := by
    rintro _ rfl; rw [List.map_map]; rfl
  have hden : (us.map (fun e => (⟨e.1, max (e.2 * amount / ONE) 1⟩ : Coin))).map (·.denom) = denoms us := by
    rw [List.map_map]; rfl
  have hfm : (funds.map fun f => (f, false)).map (·.1.denom) = funds.map (·.denom) := by
    rw [List.map_map]; rfl
  have hamt : ∀ d ∈ denoms us, amountOf d (us.map (fun e => (⟨e.1, max (e.2 * amount / ONE) 1⟩ : Coin)))
      = max ((getKey us d).getD 0 * amount / ONE) 1 := by
    intro d hd
    obtain ⟨v, hv⟩ := getKey_isSome.2 hd
    rw [hv]
    exact amountOf_of_nodup (c := ⟨d, max (v * amount / ONE) 1⟩) (by rw [hden]; exact hn)
      (List.mem_map.2 ⟨(d, v), getKey_mem hv, rfl⟩)
  unfold calcRefund
  simp only [bind_eq_ok, calcRequire_eq_ok, require_eq_ok]
  constructor
  · rintro ⟨req, ⟨h1, h2⟩, L, h3, _, h4, h5⟩
    rw [hreq req h2, foldTake_eq_ok (by rw [hden]; exact hn) (by rw [hfm]; exact hf)] at h3
    obtain ⟨h3, rfl⟩ := h3
    have h6 : ∀ c ∈ funds, c.denom ∈ denoms us := by
      intro c hc
      have := List.all_eq_true.1 h4 _ (List.mem_map.2 ⟨(c, false), List.mem_map.2 ⟨c, hc, rfl⟩, rfl⟩)
      simpa [denoms, List.mem_map] using this
    refine ⟨h1, ?_, h6, ?_⟩
    · intro e he
      obtain ⟨p, hp, hpd, hpa⟩ := h3 _ (List.mem_map.2 ⟨e, he, rfl⟩)
      obtain ⟨c, hc, rfl⟩ := List.mem_map.1 hp
      exact ⟨c, hc, hpd, hpa⟩
    · cases h5
      congr 1
      rw [List.map_map, List.map_map]
      apply List.map_congr_left
      intro c hc
      simp only [Function.comp]
      rw [hamt _ (h6 c hc)]
  · rintro ⟨h1, h2, h3, rfl⟩
    refine ⟨_, ⟨h1, rfl⟩, (funds.map fun f => (f, false)).map fun p =>
      (⟨p.1.denom, p.1.amount - amountOf p.1.denom
        (us.map (fun e => (⟨e.1, max (e.2 * amount / ONE) 1⟩ : Coin)))⟩,
        p.2 || decide (p.1.denom ∈ (us.map
          (fun e => (⟨e.1, max (e.2 * amount / ONE) 1⟩ : Coin))).map (·.denom))), ?_, (), ?_, ?_⟩
    · rw [hreq _ rfl]
      rw [foldTake_eq_ok (by rw [hden]; exact hn) (by rw [hfm]; exact hf)]
      refine ⟨?_, rfl⟩
      intro x hx
      obtain ⟨e, he, rfl⟩ := List.mem_map.1 hx
      obtain ⟨c, hc, hcd, hca⟩ := h2 e he
      exact ⟨(c, false), List.mem_map.2 ⟨c, hc, rfl⟩, hcd, hca⟩
    · rw [hden, List.all_eq_true]
      intro p hp
      obtain ⟨q, hq, rfl⟩ := List.mem_map.1 hp
      obtain ⟨c, hc, rfl⟩ := List.mem_map.1 hq
      simpa using h3 c hc
    · congr 2
      rw [List.map_map, List.map_map]
      apply List.map_congr_left
      intro c hc
      simp only [Function.comp]
      rw [hamt _ (h3 c hc)]

end Ibcx.Core.Units
