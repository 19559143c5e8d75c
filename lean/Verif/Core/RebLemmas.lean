import Verif.Core.Lemmas
/-!
# Lemmas about distributing proceeds over inflation weights

Not part of the model.
-/

namespace Ibcx.Core
open Ibcx

/-- Sum of all units of a list. -/
def Units.total (us : Units) : Nat := (us.map (·.2)).sum

@[simp] theorem Units.total_nil : Units.total [] = 0 := rfl
@[simp] theorem Units.total_cons (e : Denom × Nat) (us : Units) :
    Units.total (e :: us) = e.2 + Units.total us := by simp [Units.total]

theorem addKey_total {us us' : Units} {k : Denom} {v : Nat} (h : us.addKey k v = .ok us') :
    us'.total = us.total + v := by
  induction us generalizing us' with
  | nil => simp only [Units.addKey, Except.ok.injEq] at h; subst h; simp
  | cons e us ih =>
    obtain ⟨d, u⟩ := e
    unfold Units.addKey at h
    split at h
    · simp at h; obtain ⟨_, rfl⟩ := h; simp; omega
    · simp at h; obtain ⟨w, hw, rfl⟩ := h; simp [ih hw]; omega

theorem subKey_total {us us' : Units} {k : Denom} {v : Nat} (h : us.subKey k v = .ok us') :
    us'.total + v = us.total := by
  induction us generalizing us' with
  | nil => simp [Units.subKey] at h
  | cons e us ih =>
    obtain ⟨d, u⟩ := e
    unfold Units.subKey at h
    split at h
    · simp at h; obtain ⟨_, rfl⟩ := h; simp; omega
    · simp at h; obtain ⟨w, hw, rfl⟩ := h; have := ih hw; simp; omega

theorem addKey_nodup {us us' : Units} {k : Denom} {v : Nat} (hn : us.denoms.Nodup)
    (h : us.addKey k v = .ok us') : us'.denoms.Nodup := by
  rw [(Units.addKey_eq_ok h).2.1]
  split
  · exact hn
  · rename_i hm
    rw [List.nodup_append]
    refine ⟨hn, by simp, ?_⟩
    intro a ha b hb
    simp at hb
    subst hb
    rintro rfl
    exact hm ha

theorem addKey_mem {us us' : Units} {k : Denom} {v : Nat} (h : us.addKey k v = .ok us') (d : Denom) :
    d ∈ us'.denoms ↔ d ∈ us.denoms ∨ d = k := by
  rw [(Units.addKey_eq_ok h).2.1]
  split
  · rename_i hm
    constructor
    · exact .inl
    · rintro (h | rfl)
      · exact h
      · exact hm
  · simp

theorem sumWeights_eq_ok {ws : Units} {n : Nat} (h : sumWeights ws = .ok n) : n = ws.total := by
  unfold sumWeights at h
  suffices H : ∀ (acc : Nat), ws.foldlM (fun acc e => add acc e.2) acc = .ok n → n = acc + ws.total by
    simpa using H 0 h
  clear h
  induction ws with
  | nil => intro acc h; simp [pure, Except.pure] at h; simp [h]
  | cons e ws ih =>
    intro acc h
    rw [List.foldlM_cons, bind_eq_ok] at h
    obtain ⟨a, ha, h⟩ := h
    rw [add_eq_ok] at ha
    obtain ⟨_, rfl⟩ := ha
    rw [ih _ h]; simp; omega

theorem sumWeights_ok {ws : Units} (h : ws.total < U128) : sumWeights ws = .ok ws.total := by
  unfold sumWeights
  suffices H : ∀ (acc : Nat), acc + ws.total < U128 →
      ws.foldlM (fun acc e => add acc e.2) acc = .ok (acc + ws.total) by
    simpa using H 0 (by simpa using h)
  clear h
  induction ws with
  | nil => intro acc h; simp [pure, Except.pure]
  | cons e ws ih =>
    intro acc h
    simp at h
    rw [List.foldlM_cons]
    have : add acc e.2 = .ok (acc + e.2) := by rw [add_eq_ok]; exact ⟨by omega, rfl⟩
    rw [this, ok_bind, ih _ (by omega)]
    simp; omega

/-- One share: rounding never gives more than the proportional part. -/
theorem share_le {expand w total : Nat} (hw : w ≤ total) (ht : total ≠ 0) :
    expand * w / ONE * ONE / total ≤ expand := by
  apply Nat.div_le_of_le_mul
  calc expand * w / ONE * ONE ≤ expand * w := Nat.div_mul_le_self _ _
    _ ≤ expand * total := Nat.mul_le_mul_left _ hw
    _ = total * expand := Nat.mul_comm _ _

/-- Everything the distribution loop guarantees. -/
theorem inflateLoop_spec {ws res res' : Units} {expand total : Nat}
    (h : inflateLoop res expand total ws = .ok res') :
    (res.denoms.Nodup → res'.denoms.Nodup) ∧
    (∀ d, d ∈ res'.denoms ↔ d ∈ res.denoms ∨ d ∈ ws.denoms) ∧
    (∀ d, d ∉ ws.denoms → res'.getKey d = res.getKey d) ∧
    (∀ d, (res.getKey d).getD 0 ≤ (res'.getKey d).getD 0) ∧
    res.total ≤ res'.total ∧ res'.total ≤ res.total + expand := by
  induction ws generalizing res expand total with
  | nil =>
    simp only [inflateLoop, Except.ok.injEq] at h
    subst h
    simp [Units.denoms]
  | cons e ws ih =>
    obtain ⟨d0, w⟩ := e
    simp only [inflateLoop, bind_eq_ok, decMul_eq_ok, ratio_eq_ok, sub_eq_ok] at h
    obtain ⟨m, _, share, _, res1, hadd, _, ⟨hle, rfl⟩, _, ⟨hw, rfl⟩, h⟩ := h
    obtain ⟨i1, i2, i3, i4, i5, i6⟩ := ih h
    obtain ⟨a1, a2, a3⟩ := Units.addKey_eq_ok hadd
    have hsum := addKey_total hadd
    have hden : Units.denoms ((d0, w) :: ws) = d0 :: Units.denoms ws := rfl
    refine ⟨fun hn => i1 (addKey_nodup hn hadd), ?_, ?_, ?_, by omega, by omega⟩
    · intro d
      rw [i2, addKey_mem hadd, hden, List.mem_cons]
      tauto
    · intro d hd
      rw [hden, List.mem_cons, not_or] at hd
      rw [i3 d hd.2, a1 d, if_neg hd.1]
    · intro d
      refine le_trans ?_ (i4 d)
      rw [a1 d]
      split
      · rename_i hd; subst hd; simp
      · exact le_refl _

theorem inflateReserveUnit_spec {ws res res' : Units} {expand : Nat}
    (h : inflateReserveUnit res expand ws = .ok res') :
    (res.denoms.Nodup → res'.denoms.Nodup) ∧
    (∀ d, d ∈ res'.denoms ↔ d ∈ res.denoms ∨ d ∈ ws.denoms) ∧
    (∀ d, d ∉ ws.denoms → res'.getKey d = res.getKey d) ∧
    (∀ d, (res.getKey d).getD 0 ≤ (res'.getKey d).getD 0) ∧
    res.total ≤ res'.total ∧ res'.total ≤ res.total + expand := by
  simp only [inflateReserveUnit, bind_eq_ok] at h
  obtain ⟨_, _, h⟩ := h
  exact inflateLoop_spec h

end Ibcx.Core
