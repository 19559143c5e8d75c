import Verif.Core.RebLemmas
import Mathlib.Tactic.Ring
import Mathlib.Tactic.Linarith
/-!
# Success and precision of distributing proceeds

Not part of the model.
-/

namespace Ibcx.Core
open Ibcx

theorem total_append (a b : Units) : Units.total (a ++ b) = Units.total a + Units.total b := by
  simp [Units.total]

theorem mem_le_total {ws : Units} {e : Denom × Nat} (h : e ∈ ws) : e.2 ≤ ws.total := by
  induction ws with
  | nil => simp at h
  | cons x ws ih =>
    rcases List.mem_cons.1 h with rfl | h
    · simp
    · have := ih h; simp; omega

/-- A zero weight at the end makes every distribution fail. -/
theorem inflateLoop_last_zero {ws res res' : Units} {expand : Nat} {d : Denom} :
    inflateLoop res expand (Units.total (ws ++ [(d, 0)])) (ws ++ [(d, 0)]) ≠ .ok res' := by
  induction ws generalizing res expand with
  | nil => simp [inflateLoop]
  | cons e ws ih =>
    obtain ⟨d0, w⟩ := e
    intro h
    simp only [List.cons_append, inflateLoop, bind_eq_ok, decMul_eq_ok, ratio_eq_ok, sub_eq_ok,
      Units.total_cons] at h
    obtain ⟨m, _, share, _, res1, hadd, _, ⟨hle, rfl⟩, _, ⟨hw, rfl⟩, h⟩ := h
    rw [Nat.add_sub_cancel_left] at h
    exact ih h

theorem inflateReserveUnit_last_zero {ws res res' : Units} {expand : Nat} {d : Denom} :
    inflateReserveUnit res expand (ws ++ [(d, 0)]) ≠ .ok res' := by
  intro h
  simp only [inflateReserveUnit, bind_eq_ok] at h
  obtain ⟨t, ht, h⟩ := h
  rw [sumWeights_eq_ok ht] at h
  exact inflateLoop_last_zero h

theorem loop_step_eq {expand w T m share : Nat} (e1 : decMul expand w = .ok m) (e2 : ratio m T = .ok share)
    (e3 : sub expand share = .ok (expand - share)) (e4 : sub T w = .ok (T - w))
    (res : Units) (d : Denom) (ws : Units) :
    inflateLoop res expand T ((d, w) :: ws) =
      (res.addKey d share >>= fun r => inflateLoop r (expand - share) (T - w) ws) := by
  rw [inflateLoop, e1, ok_bind, e2, ok_bind]
  cases res.addKey d share with
  | error e => rfl
  | ok r => rw [ok_bind, e3, ok_bind, e4, ok_bind, ok_bind]

theorem share_ratio {expand w T : Nat} (hw : w ≤ T) (hT : T ≠ 0) (hE : expand < U128) :
    ratio (expand * w / ONE) T = .ok (expand * w / ONE * ONE / T) :=
  ratio_eq_ok.2 ⟨hT, lt_of_le_of_lt (share_le hw hT) hE, rfl⟩

theorem loop_step {expand w T : Nat} (hw : w ≤ T) (hT : T ≠ 0) (hm : expand * w / ONE < U128)
    (hE : expand < U128) :
    ∃ share, share ≤ expand ∧ ∀ (res : Units) (d : Denom) (ws : Units),
      inflateLoop res expand T ((d, w) :: ws) =
        (res.addKey d share >>= fun r => inflateLoop r (expand - share) (T - w) ws) :=
  ⟨_, share_le hw hT, loop_step_eq (decMul_eq_ok.2 ⟨hm, rfl⟩) (share_ratio hw hT hE)
    (sub_eq_ok.2 ⟨share_le hw hT, rfl⟩) (sub_eq_ok.2 ⟨hw, rfl⟩)⟩

/-- A positive weight at the end makes every distribution succeed when the numbers fit. -/
theorem inflateLoop_ok {ws res : Units} {expand : Nat}
    (hlast : ∀ e, ws.getLast? = some e → 0 < e.2)
    (hm : ∀ e ∈ ws, expand * e.2 / ONE < U128)
    (hres : ∀ d, (res.getKey d).getD 0 + expand < U128) :
    ∃ res', inflateLoop res expand ws.total ws = .ok res' := by
  induction ws generalizing res expand with
  | nil => exact ⟨res, rfl⟩
  | cons e ws ih =>
    obtain ⟨d0, w⟩ := e
    have hpos : Units.total ((d0, w) :: ws) ≠ 0 := by
      cases hl : List.getLast? ((d0, w) :: ws) with
      | none => simp at hl
      | some x =>
        have h1 := hlast x hl
        have h2 := mem_le_total (List.mem_of_getLast? hl)
        omega
    have hd0 := hres d0
    obtain ⟨share, hsh, hstep⟩ := loop_step (w := w) (T := Units.total ((d0, w) :: ws)) (by simp) hpos
      (hm (d0, w) (by simp)) (lt_of_le_of_lt (Nat.le_add_left _ _) hd0)
    have hm' : ∀ x ∈ ws, (expand - share) * x.2 / ONE < U128 := by
      intro x hx
      have hq : ∀ o : Nat, (expand - share) * x.2 / o ≤ expand * x.2 / o := fun o =>
        Nat.div_le_div_right (Nat.mul_le_mul_right _ (Nat.sub_le _ _))
      exact lt_of_le_of_lt (hq ONE) (hm x (by simp [hx]))
    clear hm
    obtain ⟨res1, hadd⟩ := Units.addKey_ok (us := res) (k := d0) (v := share) (fun _ => by omega)
    obtain ⟨a1, _, _⟩ := Units.addKey_eq_ok hadd
    obtain ⟨res', h'⟩ := ih (res := res1) (expand := expand - share)
      (by
        intro x hx
        apply hlast
        cases ws with
        | nil => simp at hx
        | cons y ys => simpa using hx)
      hm'
      (by
        intro d
        rw [a1 d]
        have := hres d
        split
        · simp only [Option.getD_some]; omega
        · omega)
    refine ⟨res', ?_⟩
    have hT : Units.total ((d0, w) :: ws) - w = Units.total ws := by simp
    rw [hstep, hadd, ok_bind, hT]
    exact h'

theorem inflateReserveUnit_ok {ws res : Units} {expand : Nat}
    (hlast : ∀ e, ws.getLast? = some e → 0 < e.2) (hsum : ws.total < U128)
    (hm : ∀ e ∈ ws, expand * e.2 / ONE < U128)
    (hres : ∀ d, (res.getKey d).getD 0 + expand < U128) :
    ∃ res', inflateReserveUnit res expand ws = .ok res' := by
  obtain ⟨res', h⟩ := inflateLoop_ok hlast hm hres
  exact ⟨res', by simp [inflateReserveUnit, sumWeights_ok hsum, h]⟩

/-- What is left undistributed. -/
theorem inflateLoop_leftover {ws res res' : Units} {expand : Nat} {d : Denom} {w : Nat}
    (h : inflateLoop res expand (Units.total (ws ++ [(d, w)])) (ws ++ [(d, w)]) = .ok res') :
    (res.total + expand - res'.total) * w < ONE + w := by
  induction ws generalizing res expand with
  | nil =>
    simp only [List.nil_append, inflateLoop, bind_eq_ok, decMul_eq_ok, ratio_eq_ok, sub_eq_ok,
      Units.total_cons, Units.total_nil, Nat.add_zero, Except.ok.injEq] at h
    obtain ⟨m, ⟨_, rfl⟩, share, ⟨hw0, _, rfl⟩, res1, hadd, _, ⟨hle, rfl⟩, _, ⟨_, _⟩, rfl⟩ := h
    rw [addKey_total hadd]
    generalize hm : expand * w / ONE = m at *
    generalize hs : m * ONE / w = share at *
    have e1 : expand * w < (m + 1) * ONE := by
      rw [← hm]; exact Nat.lt_mul_of_div_lt (Nat.lt_succ_self _) (by norm_num [ONE])
    have e2 : m * ONE < (share + 1) * w := by
      rw [← hs]; exact Nat.lt_mul_of_div_lt (Nat.lt_succ_self _) (by omega)
    have e3 : res.total + expand - (res.total + share) = expand - share := by omega
    rw [e3, Nat.sub_mul]
    generalize ONE = o at *
    have : expand * w < share * w + w + o := by nlinarith
    have : share * w ≤ expand * w := Nat.mul_le_mul_right _ hle
    omega
  | cons e ws ih =>
    obtain ⟨d0, w0⟩ := e
    simp only [List.cons_append, inflateLoop, bind_eq_ok, decMul_eq_ok, ratio_eq_ok, sub_eq_ok,
      Units.total_cons] at h
    obtain ⟨m, _, share, _, res1, hadd, _, ⟨hle, rfl⟩, _, ⟨hw, rfl⟩, h⟩ := h
    rw [Nat.add_sub_cancel_left] at h
    have := ih h
    rw [addKey_total hadd] at this
    rwa [show res.total + share + (expand - share) = res.total + expand by omega] at this

/-- Each listed denom gets its proportional part up to rounding. -/
theorem inflateLoop_fair {ws res res' : Units} {expand : Nat} (hn : ws.denoms.Nodup)
    (h : inflateLoop res expand ws.total ws = .ok res') {d : Denom} {w : Nat} (hd : (d, w) ∈ ws) :
    expand * w * w ≤ ws.total * w * ((res'.getKey d).getD 0 - (res.getKey d).getD 0 + 1) + ws.total * ONE := by
  induction ws generalizing res expand with
  | nil => simp at hd
  | cons e ws ih =>
    obtain ⟨d0, w0⟩ := e
    have hn' : d0 ∉ Units.denoms ws ∧ (Units.denoms ws).Nodup := by simpa [Units.denoms] using hn
    simp only [inflateLoop, bind_eq_ok, decMul_eq_ok, ratio_eq_ok, sub_eq_ok] at h
    obtain ⟨m, ⟨_, hm⟩, share, ⟨ht0, _, hs⟩, res1, hadd, _, ⟨hle, rfl⟩, _, ⟨hw, rfl⟩, h⟩ := h
    replace hm := hm.symm
    replace hs := hs.symm
    have hT : Units.total ((d0, w0) :: ws) = w0 + Units.total ws := by simp
    rw [hT] at hs ht0
    have htot : Units.total ((d0, w0) :: ws) - w0 = Units.total ws := by simp
    rw [htot] at h
    obtain ⟨a1, _, _⟩ := Units.addKey_eq_ok hadd
    obtain ⟨i1, i2, i3, i4, i5, i6⟩ := inflateLoop_spec h
    rw [hT] at *
    generalize hT' : Units.total ws = T' at *
    have e1 : expand * w0 < (m + 1) * ONE := by
      rw [← hm]; exact Nat.lt_mul_of_div_lt (Nat.lt_succ_self _) (by norm_num [ONE])
    have e2 : m * ONE < (share + 1) * (w0 + T') := by
      rw [← hs]; exact Nat.lt_mul_of_div_lt (Nat.lt_succ_self _) (by omega)
    rcases List.mem_cons.1 hd with he | hmem
    · cases he
      have hk : res'.getKey d = some ((res.getKey d).getD 0 + share) := by
        rw [i3 d hn'.1, a1 d, if_pos rfl]
      rw [hk]
      simp only [Option.getD_some]
      rw [Nat.add_sub_cancel_left]
      generalize ONE = o at *
      have e3 : expand * w ≤ (w + T') * (share + 1) + o := by nlinarith
      calc expand * w * w ≤ ((w + T') * (share + 1) + o) * w := Nat.mul_le_mul_right _ e3
        _ = (w + T') * w * (share + 1) + w * o := by ring
        _ ≤ _ := by
          have : w * o ≤ (w + T') * o := Nat.mul_le_mul_right _ (by omega)
          omega
    · have hne : d ≠ d0 := by
        rintro rfl
        exact hn'.1 (List.mem_map.2 ⟨_, hmem, rfl⟩)
      have hi := ih hn'.2 h hmem
      rw [a1 d, if_neg hne] at hi
      generalize (res'.getKey d).getD 0 - (res.getKey d).getD 0 + 1 = g at *
      have hwT : w ≤ T' := by rw [← hT']; exact mem_le_total hmem
      by_cases hw0 : w = 0
      · subst hw0; simp
      have hT0 : 0 < T' := by omega
      have hsh : share * (w0 + T') ≤ expand * w0 := by
        calc share * (w0 + T') ≤ m * ONE := by rw [← hs]; exact Nat.div_mul_le_self _ _
          _ ≤ expand * w0 := by rw [← hm]; exact Nat.div_mul_le_self _ _
      have hE : expand * T' ≤ (expand - share) * (w0 + T') := by
        rw [Nat.sub_mul]
        have : expand * (w0 + T') = expand * w0 + expand * T' := by ring
        omega
      refine Nat.le_of_mul_le_mul_left ?_ hT0
      generalize ONE = o at *
      calc T' * (expand * w * w) = expand * T' * (w * w) := by ring
        _ ≤ (expand - share) * (w0 + T') * (w * w) := Nat.mul_le_mul_right _ hE
        _ = (w0 + T') * ((expand - share) * w * w) := by ring
        _ ≤ (w0 + T') * (T' * w * g + T' * o) := Nat.mul_le_mul_left _ hi
        _ = T' * ((w0 + T') * w * g + (w0 + T') * o) := by ring

end Ibcx.Core
