import Verif.Pool.Sim
import Verif.NumLemmas
import Verif.Math.PowLemmas
/-!
# Facts about the simulator
-/

namespace Ibcx.Pool
open Ibcx Ibcx.Math

theorem findRoutes_eq_ok {infos : List SwapInfo} {src dst : Denom} {r : List SwapRoute} :
    findRoutes infos src dst = .ok r ↔
      ∃ i, infos.find? (fun i => decide (i.src = src ∧ i.dst = dst)) = some i ∧ r = i.routes := by
  unfold findRoutes
  cases infos.find? (fun i => decide (i.src = src ∧ i.dst = dst)) <;> simp [eq_comm]

/-- What a unit contributes to a purchase. -/
def InSpec (s : Simulator) (index : Nat) (input : Denom) (e : Denom × Nat) (r : SimIn) : Prop :=
  r.amountOut = ⟨e.1, e.2 * index / ONE⟩ ∧
  (e.1 = input → r.simAmountIn = e.2 * index / ONE ∧ r.routes = none) ∧
  (e.1 ≠ input → ∃ i, s.swapInfo.find? (fun i => decide (i.src = input ∧ i.dst = e.1)) = some i ∧
    r.routes = some i.routes.reverse)

/-- What a unit contributes to a sale. -/
def OutSpec (s : Simulator) (index : Nat) (output : Denom) (e : Denom × Nat) (r : SimOut) : Prop :=
  r.amountIn = ⟨e.1, e.2 * index / ONE⟩ ∧
  (e.1 = output → r.simAmountOut = e.2 * index / ONE ∧ r.routes = none) ∧
  (e.1 ≠ output → ∃ i, s.swapInfo.find? (fun i => decide (i.src = e.1 ∧ i.dst = output)) = some i ∧
    r.routes = some i.routes)

theorem inRoutes_spec {s : Simulator} {index : Nat} {input : Denom} :
    ∀ {us : Core.Units} {pools : KV Nat Pool} {rs : List SimIn}, inRoutes s index input us pools = .ok rs →
      List.Forall₂ (InSpec s index input) us rs := by
  intro us
  induction us with
  | nil => intro pools rs h; cases h; exact .nil
  | cons e us ih =>
    obtain ⟨d, u⟩ := e
    intro pools rs h
    rw [inRoutes] at h
    by_cases hd : d = input
    · simp only [hd, if_true, bind_eq_ok, mulInt_eq_ok, Except.ok.injEq] at h
      obtain ⟨a, ⟨_, rfl⟩, x, rfl, rs', h, rfl⟩ := h
      refine .cons ⟨by rw [hd], fun _ => ⟨rfl, rfl⟩, fun h => absurd hd h⟩ (ih h)
    · simp only [hd, if_false, bind_eq_ok, mulInt_eq_ok, estInGivenOut, findRoutes_eq_ok, Except.ok.injEq] at h
      obtain ⟨a, ⟨_, rfl⟩, x, ⟨routes, ⟨i, hi, rfl⟩, y, hy, rfl⟩, rs', h, rfl⟩ := h
      refine .cons ⟨rfl, fun h => absurd h hd, fun _ => ⟨i, hi, rfl⟩⟩ (ih h)

theorem outRoutes_spec {s : Simulator} {index : Nat} {output : Denom} :
    ∀ {us : Core.Units} {pools : KV Nat Pool} {rs : List SimOut}, outRoutes s index output us pools = .ok rs →
      List.Forall₂ (OutSpec s index output) us rs := by
  intro us
  induction us with
  | nil => intro pools rs h; cases h; exact .nil
  | cons e us ih =>
    obtain ⟨d, u⟩ := e
    intro pools rs h
    rw [outRoutes] at h
    by_cases hd : d = output
    · simp only [hd, if_true, bind_eq_ok, mulInt_eq_ok, Except.ok.injEq] at h
      obtain ⟨a, ⟨_, rfl⟩, x, rfl, rs', h, rfl⟩ := h
      refine .cons ⟨by rw [hd], fun _ => ⟨rfl, rfl⟩, fun h => absurd hd h⟩ (ih h)
    · simp only [hd, if_false, bind_eq_ok, mulInt_eq_ok, estOutGivenIn, findRoutes_eq_ok, Except.ok.injEq] at h
      obtain ⟨a, ⟨_, rfl⟩, x, ⟨routes, ⟨i, hi, rfl⟩, y, hy, rfl⟩, rs', h, rfl⟩ := h
      refine .cons ⟨rfl, fun h => absurd h hd, fun _ => ⟨i, hi, rfl⟩⟩ (ih h)

theorem foldAdd_eq {α : Type} (f : α → Nat) : ∀ (xs : List α) (z t : Nat),
    xs.foldlM (m := Res) (fun acc r => add acc (f r)) z = .ok t → t = z + (xs.map f).sum := by
  intro xs
  induction xs with
  | nil => intro z t h; cases h; simp
  | cons x xs ih =>
    intro z t h
    simp only [List.foldlM_cons, bind_eq_ok, add_eq_ok] at h
    obtain ⟨w, ⟨_, rfl⟩, h⟩ := h
    rw [ih _ _ h, List.map_cons, List.sum_cons]
    omega

theorem sumIn_eq {rs : List SimIn} {t : Nat} (h : sumIn rs = .ok t) : t = (rs.map (·.simAmountIn)).sum := by
  have := foldAdd_eq _ _ _ _ h
  rw [Nat.zero_add] at this
  exact this

theorem sumOut_eq {rs : List SimOut} {t : Nat} (h : sumOut rs = .ok t) : t = (rs.map (·.simAmountOut)).sum := by
  have := foldAdd_eq _ _ _ _ h
  rw [Nat.zero_add] at this
  exact this

theorem tokenGivenIndexOut_spec {s : Simulator} {index : Nat} {input : Denom} {t : Nat} {rs : List SimIn}
    (h : tokenGivenIndexOut s index input = .ok (t, rs)) :
    List.Forall₂ (InSpec s index input) s.units rs ∧ t = (rs.map (·.simAmountIn)).sum := by
  simp only [tokenGivenIndexOut, bind_eq_ok, Except.ok.injEq, Prod.mk.injEq] at h
  obtain ⟨rs', h1, t', h2, rfl, rfl⟩ := h
  exact ⟨inRoutes_spec h1, sumIn_eq h2⟩

theorem tokenGivenIndexIn_spec {s : Simulator} {index : Nat} {output : Denom} {t : Nat} {rs : List SimOut}
    (h : tokenGivenIndexIn s index output = .ok (t, rs)) :
    List.Forall₂ (OutSpec s index output) s.units rs ∧ t = (rs.map (·.simAmountOut)).sum := by
  simp only [tokenGivenIndexIn, bind_eq_ok, Except.ok.injEq, Prod.mk.injEq] at h
  obtain ⟨rs', h1, t', h2, rfl, rfl⟩ := h
  exact ⟨outRoutes_spec h1, sumOut_eq h2⟩

theorem one_le_ratio {n d r : Nat} (h : ratio n d = .ok r) : ONE ≤ r ↔ d ≤ n := by
  simp only [ratio_eq_ok] at h
  obtain ⟨h0, _, rfl⟩ := h
  have hp := one_pos
  rw [Nat.le_div_iff_mul_le (by omega), Nat.mul_comm ONE d]
  exact Nat.mul_le_mul_right_iff hp

theorem searchInLoop_eq_ok {s : Simulator} {desired : Coin} : ∀ {n : Nat} {acc r : SearchIn},
    searchInLoop s desired n acc = .ok r →
      r.spent ≤ desired.amount ∧ desired.amount < r.spent + MAX_ERROR ∧
        tokenGivenIndexOut s r.index desired.denom = .ok (r.spent, r.routes) := by
  intro n
  induction n with
  | zero => intro acc r h; cases h
  | succ n ih =>
    intro acc r h
    simp only [searchInLoop, bind_eq_ok] at h
    obtain ⟨acc', h1, err, h2, h⟩ := h
    split at h
    · rename_i he
      rw [one_le_ratio h2] at he
      simp only [bind_eq_ok, sub_eq_ok] at h
      obtain ⟨gap, ⟨_, rfl⟩, h⟩ := h
      split at h
      · rename_i hg
        cases h
        refine ⟨he, by omega, ?_⟩
        simp only [searchInF, bind_eq_ok, Except.ok.injEq] at h1
        obtain ⟨_, _, index, _, x, hx, rfl⟩ := h1
        exact hx
      · exact ih h
    · exact ih h

theorem searchOutLoop_eq_ok {s : Simulator} {desired : Coin} : ∀ {n : Nat} {acc r : SearchOut},
    searchOutLoop s desired n acc = .ok r →
      r.received ≤ desired.amount ∧ desired.amount < r.received + MAX_ERROR ∧
        tokenGivenIndexIn s r.index desired.denom = .ok (r.received, r.routes) := by
  intro n
  induction n with
  | zero => intro acc r h; cases h
  | succ n ih =>
    intro acc r h
    simp only [searchOutLoop, bind_eq_ok] at h
    obtain ⟨acc', h1, err, h2, h⟩ := h
    split at h
    · rename_i he
      rw [one_le_ratio h2] at he
      simp only [bind_eq_ok, sub_eq_ok] at h
      obtain ⟨gap, ⟨_, rfl⟩, h⟩ := h
      split at h
      · rename_i hg
        cases h
        refine ⟨he, by omega, ?_⟩
        simp only [searchOutF, bind_eq_ok, Except.ok.injEq] at h1
        obtain ⟨_, _, index, _, x, hx, rfl⟩ := h1
        exact hx
      · exact ih h
    · exact ih h

theorem searchForInput_spec {s : Simulator} {desired : Coin} {init : Option Nat} {r : SearchIn}
    (h : searchForInput s desired init = .ok r) :
    r.spent ≤ desired.amount ∧ desired.amount < r.spent + MAX_ERROR ∧
      tokenGivenIndexOut s r.index desired.denom = .ok (r.spent, r.routes) := by
  simp only [searchForInput, bind_eq_ok] at h
  obtain ⟨_, _, h⟩ := h
  exact searchInLoop_eq_ok h

theorem searchForOutput_spec {s : Simulator} {desired : Coin} {init : Option Nat} {r : SearchOut}
    (h : searchForOutput s desired init = .ok r) :
    r.received ≤ desired.amount ∧ desired.amount < r.received + MAX_ERROR ∧
      tokenGivenIndexIn s r.index desired.denom = .ok (r.received, r.routes) := by
  simp only [searchForOutput, bind_eq_ok] at h
  obtain ⟨_, _, h⟩ := h
  exact searchOutLoop_eq_ok h

/-- With a minimum, the revised estimate is at least the minimum, at most the search result, and priced. -/
theorem estIndexForInput_some {s : Simulator} {desired : Coin} {init : Option Nat} {m : Nat} {res est : SearchIn}
    (h : estIndexForInput s desired init (some m) = .ok (res, some est)) :
    m ≤ est.index ∧ tokenGivenIndexOut s est.index desired.denom = .ok (est.spent, est.routes) := by
  simp only [estIndexForInput, bind_eq_ok, require_eq_ok, sub_eq_ok, mulInt_eq_ok, Except.ok.injEq, Prod.mk.injEq,
    Option.some.injEq] at h
  obtain ⟨r, _, _, hm, _, ⟨_, rfl⟩, _, ⟨_, rfl⟩, _, ⟨_, rfl⟩, ⟨t, rs⟩, ht, rfl, rfl⟩ := h
  refine ⟨?_, ht⟩
  have h1 : THIRD * (r.index - m) / ONE ≤ r.index - m := by
    apply Nat.div_le_of_le_mul
    exact Nat.mul_le_mul_right _ (by norm_num [THIRD, ONE])
  simp only
  omega

end Ibcx.Pool
