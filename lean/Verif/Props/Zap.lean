import Verif.Pool.Lemmas
import Verif.Spec.Zap
/-!
# Properties of the simulator and the swap messages (C42, C43, C44, C47, C56)
-/

namespace Ibcx.Props
open Ibcx Ibcx.Pool Ibcx.Spec

/-- An environment for the examples: pools trade one to one. -/
def zapEnv : Env :=
  { now := 1000, height := 7, contract := "zap", validAddr := fun _ => true
    estOut := fun _ c => .ok c.amount, estIn := fun _ c => .ok c.amount }

/-- A basket of one atom and half an osmo per index token, with a one-hop and a two-hop route from osmo. -/
def zapSim : Simulator :=
  { env := zapEnv
    pools := [.queried 1 (.ok 0), .queried 2 (.ok 0)]
    swapInfo := [⟨"osmo", "atom", [⟨1, "osmo"⟩]⟩, ⟨"osmo", "juno", [⟨2, "osmo"⟩, ⟨1, "atom"⟩]⟩,
      ⟨"atom", "osmo", [⟨1, "osmo"⟩]⟩, ⟨"juno", "osmo", [⟨1, "atom"⟩, ⟨2, "osmo"⟩]⟩]
    units := [("atom", 10 ^ 18), ("osmo", 5 * 10 ^ 17), ("juno", 2 * 10 ^ 18)] }

/-! ### C42 -/

/-- **C42 (budget).** A successful search for the amount of index tokens affordable with `desired` proposes a purchase
of exactly the basket of that amount whose total cost is at most `desired` and more than `desired - 5000`. -/
theorem C42_search_for_input {s : Simulator} {desired : Coin} {init : Option Nat} {r : SearchIn}
    (h : searchForInput s desired init = .ok r) :
    r.spent ≤ desired.amount ∧ desired.amount < r.spent + 5000 ∧
      r.spent = (r.routes.map (·.simAmountIn)).sum ∧ r.routes.map (·.amountOut) = basket s.units r.index := by
  obtain ⟨h1, h2, h3⟩ := searchForInput_spec h
  obtain ⟨h4, h5⟩ := tokenGivenIndexOut_spec h3
  refine ⟨h1, h2, h5, ?_⟩
  unfold basket
  clear h3 h5
  generalize s.units = us at h4 ⊢
  generalize r.routes = rs at h4 ⊢
  induction h4 with
  | nil => rfl
  | cons a _ ih => rw [List.map_cons, List.map_cons, ih, a.1]; rfl

/-- 70000 osmo buy 20000 index tokens at 3.5 osmo. -/
example : ((searchForInput zapSim ⟨"osmo", 70000⟩ none).map fun r => (r.spent, r.index)) = .ok (70000, 20000) := by
  decide +kernel

/-- **C42 (proceeds).** A successful search for the amount of index tokens worth `desired` proposes a sale of exactly
the basket of that amount whose total proceeds are at most `desired` and more than `desired - 5000`. -/
theorem C42_search_for_output {s : Simulator} {desired : Coin} {init : Option Nat} {r : SearchOut}
    (h : searchForOutput s desired init = .ok r) :
    r.received ≤ desired.amount ∧ desired.amount < r.received + 5000 ∧
      r.received = (r.routes.map (·.simAmountOut)).sum ∧ r.routes.map (·.amountIn) = basket s.units r.index := by
  obtain ⟨h1, h2, h3⟩ := searchForOutput_spec h
  obtain ⟨h4, h5⟩ := tokenGivenIndexIn_spec h3
  refine ⟨h1, h2, h5, ?_⟩
  unfold basket
  clear h3 h5
  generalize s.units = us at h4 ⊢
  generalize r.routes = rs at h4 ⊢
  induction h4 with
  | nil => rfl
  | cons a _ ih => rw [List.map_cons, List.map_cons, ih, a.1]; rfl

/-- Both searches succeed on the example basket. -/
example : ((searchForInput zapSim ⟨"osmo", 70000⟩ none).map fun r => (r.spent, r.index)) = .ok (70000, 20000) ∧
    ((searchForOutput zapSim ⟨"osmo", 70001⟩ (some 1)).map fun r => (r.received, r.index)) = .ok (70000, 20000) := by
  decide +kernel

/-! ### C43 -/

private theorem sum_floor_le {α : Type} (f : α → Nat) (P k : Nat) (xs : List α) :
    P * (xs.map fun x => k * f x / P).sum ≤ k * (xs.map f).sum := by
  induction xs with
  | nil => simp
  | cons x xs ih =>
    rw [List.map_cons, List.sum_cons, List.map_cons, List.sum_cons, Nat.mul_add, Nat.mul_add]
    exact Nat.add_le_add (Nat.mul_div_le _ _) ih

/-- What the messages of a purchase look like, entry by entry. -/
theorem inMsgs_map {contract : Addr} {amp : Nat} : ∀ {rs : List SimIn} {ms : List (Option Msg)},
    rs.mapM (inMsg contract amp) = .ok ms →
      ms.filterMap id = (rs.filter (·.routes.isSome)).map fun r =>
        .swapExactOut contract (r.routes.getD []).reverse r.amountOut (amp * r.simAmountIn / ONE) := by
  intro rs
  induction rs with
  | nil => intro ms h; cases h; rfl
  | cons r rs ih =>
    intro ms h
    simp only [List.mapM_cons, bind_eq_ok] at h
    obtain ⟨m, h1, ms', h2, h3⟩ := h
    cases h3
    obtain ⟨a, b, routes⟩ := r
    unfold inMsg at h1
    cases routes with
    | none =>
      cases h1
      simpa using ih h2
    | some rt =>
      simp only [bind_eq_ok, mulInt_eq_ok, Except.ok.injEq] at h1
      obtain ⟨_, ⟨_, rfl⟩, rfl⟩ := h1
      simpa using ih h2

theorem outMsgs_map {contract : Addr} {amp : Nat} : ∀ {rs : List SimOut} {ms : List (Option Msg)},
    rs.mapM (outMsg contract amp) = .ok ms →
      ms.filterMap id = (rs.filter (·.routes.isSome)).map fun r =>
        .swapExactIn contract (r.routes.getD []) r.amountIn (amp * r.simAmountOut / ONE) := by
  intro rs
  induction rs with
  | nil => intro ms h; cases h; rfl
  | cons r rs ih =>
    intro ms h
    simp only [List.mapM_cons, bind_eq_ok] at h
    obtain ⟨m, h1, ms', h2, h3⟩ := h
    cases h3
    obtain ⟨a, b, routes⟩ := r
    unfold outMsg at h1
    cases routes with
    | none =>
      cases h1
      simpa using ih h2
    | some rt =>
      simp only [bind_eq_ok, mulInt_eq_ok, Except.ok.injEq] at h1
      obtain ⟨_, ⟨_, rfl⟩, rfl⟩ := h1
      simpa using ih h2

theorem sum_filter_add {α : Type} (p : α → Bool) (f : α → Nat) (xs : List α) :
    ((xs.filter p).map f).sum + ((xs.filter (fun x => !p x)).map f).sum = (xs.map f).sum := by
  induction xs with
  | nil => rfl
  | cons x xs ih =>
    cases h : p x <;> simp [h] <;> omega

/-- **C43.** The swap messages of a purchase: one for each entry that needs a swap, buying exactly the amount of the
entry along its hops (in swap order), with a limit of at least the simulated need; all limits together with the
entries that need no swap stay within the maximum input. -/
theorem C43_spending_limits {rs : List SimIn} {contract : Addr} {maxInput : Nat} {ms : List Msg}
    (h : inMsgs rs contract maxInput = .ok ms) :
    (ms.map spendLimit).sum + ((rs.filter (·.routes.isNone)).map (·.simAmountIn)).sum ≤ maxInput ∧
      List.Forall₂ (fun r m => ∃ routes limit, r.routes = some routes ∧ r.simAmountIn ≤ limit ∧
        m = .swapExactOut contract routes.reverse r.amountOut limit) (rs.filter (·.routes.isSome)) ms := by
  have hp := ONE_pos
  simp only [inMsgs, bind_eq_ok, require_eq_ok, ratio_eq_ok, Except.ok.injEq] at h
  obtain ⟨t, ht, _, hle, amp, ⟨h0, _, hamp⟩, ms', hm, rfl⟩ := h
  rw [not_lt] at hle
  have hsum := sumIn_eq ht
  rw [inMsgs_map hm]
  have hge : ONE ≤ amp := by
    rw [hamp, Nat.le_div_iff_mul_le (by omega), Nat.mul_comm]
    exact Nat.mul_le_mul_right _ hle
  have hneed : ∀ x, x ≤ amp * x / ONE := fun x => by
    rw [Nat.le_div_iff_mul_le hp, Nat.mul_comm]; exact Nat.mul_le_mul_right _ hge
  constructor
  · rw [List.map_map]
    have e1 : (rs.filter fun r => r.routes.isNone) = rs.filter fun r => !r.routes.isSome := by
      congr 1; funext r; cases r.routes <;> rfl
    rw [e1]
    have h1 : ((rs.filter fun r => !r.routes.isSome).map (·.simAmountIn)).sum ≤
        ((rs.filter fun r => !r.routes.isSome).map fun r => amp * r.simAmountIn / ONE).sum := by
      generalize rs.filter (fun r => !r.routes.isSome) = xs
      induction xs with
      | nil => simp
      | cons x xs ih => simp only [List.map_cons, List.sum_cons]; exact Nat.add_le_add (hneed _) ih
    have h2 := sum_filter_add (fun r : SimIn => r.routes.isSome) (fun r => amp * r.simAmountIn / ONE) rs
    have h3 := sum_floor_le (fun r : SimIn => r.simAmountIn) ONE amp rs
    have h4 : amp * (rs.map (·.simAmountIn)).sum ≤ ONE * maxInput := by
      rw [← hsum, hamp, Nat.mul_comm ONE]; exact Nat.div_mul_le_self _ _
    have h5 : (rs.map fun r => amp * r.simAmountIn / ONE).sum ≤ maxInput :=
      Nat.le_of_mul_le_mul_left (h3.trans h4) hp
    have h6 : (((rs.filter fun r => r.routes.isSome).map (spendLimit ∘ fun r : SimIn =>
        Msg.swapExactOut contract (r.routes.getD []).reverse r.amountOut (amp * r.simAmountIn / ONE))).sum) =
        ((rs.filter fun r => r.routes.isSome).map fun r => amp * r.simAmountIn / ONE).sum := rfl
    omega
  · generalize hx : rs.filter (fun r => r.routes.isSome) = xs
    have hall : ∀ r ∈ xs, r.routes.isSome := by
      intro r hr; rw [← hx] at hr; exact (List.mem_filter.1 hr).2
    clear hx
    induction xs with
    | nil => exact .nil
    | cons r xs ih =>
      rw [List.map_cons]
      refine .cons ?_ (ih fun r hr => hall r (List.mem_cons_of_mem _ hr))
      obtain ⟨routes, hr⟩ := Option.isSome_iff_exists.1 (hall r List.mem_cons_self)
      exact ⟨routes, _, hr, hneed _, by rw [hr]; rfl⟩

/-- A purchase with a budget above the simulated total: the limits are 101 and 202, the entry without swap costs
50. -/
example : (do
      let x ← tokenGivenIndexOut zapSim 100 "osmo"
      inMsgs x.2 "zap" 355) =
    .ok [.swapExactOut "zap" [⟨1, "osmo"⟩] ⟨"atom", 100⟩ 101,
      .swapExactOut "zap" [⟨2, "osmo"⟩, ⟨1, "atom"⟩] ⟨"juno", 200⟩ 202] := by decide +kernel

/-! ### C44 -/

/-- The full claim: the guaranteed proceeds reach the requested minimum. -/
def C44_full : Prop :=
  ∀ (rs : List SimOut) (contract : Addr) (minOutput : Nat) (ms : List Msg), outMsgs rs contract minOutput = .ok ms →
    minOutput ≤ (ms.map leastProceeds).sum + ((rs.filter (·.routes.isNone)).map (·.simAmountOut)).sum

/-- It is false: with three routes worth one unit each and a minimum of one, every route guarantees nothing. -/
theorem C44_full_false : ¬ C44_full := by
  intro h
  have := h [⟨⟨"a", 1⟩, 1, some [⟨1, "x"⟩]⟩, ⟨⟨"b", 1⟩, 1, some [⟨2, "x"⟩]⟩, ⟨⟨"c", 1⟩, 1, some [⟨3, "x"⟩]⟩] "zap" 1
    [.swapExactIn "zap" [⟨1, "x"⟩] ⟨"a", 1⟩ 0, .swapExactIn "zap" [⟨2, "x"⟩] ⟨"b", 1⟩ 0,
      .swapExactIn "zap" [⟨3, "x"⟩] ⟨"c", 1⟩ 0] (by decide +kernel)
  revert this
  decide

/-- **C44 (what holds).** The swap messages of a sale: one for each entry that needs a swap, selling exactly the
amount of the entry along its hops; no route guarantees more than its simulated proceeds; the guaranteed proceeds and
the entries that need no swap fall short of the minimum by at most one unit per message and a 10^-18 part of the
simulated total. -/
theorem C44_least_proceeds_partial {rs : List SimOut} {contract : Addr} {minOutput : Nat} {ms : List Msg}
    (h : outMsgs rs contract minOutput = .ok ms) :
    minOutput ≤ (ms.map leastProceeds).sum + ((rs.filter (·.routes.isNone)).map (·.simAmountOut)).sum + ms.length +
        (rs.map (·.simAmountOut)).sum / 1000000000000000000 ∧
      List.Forall₂ (fun r m => ∃ routes least, r.routes = some routes ∧ least ≤ r.simAmountOut ∧
        m = .swapExactIn contract routes r.amountIn least) (rs.filter (·.routes.isSome)) ms := by
  have hp := ONE_pos
  simp only [outMsgs, bind_eq_ok, require_eq_ok, ratio_eq_ok, Except.ok.injEq] at h
  obtain ⟨t, ht, _, hle, amp, ⟨h0, _, hamp⟩, ms', hm, rfl⟩ := h
  rw [not_lt] at hle
  have hsum := sumOut_eq ht
  rw [outMsgs_map hm]
  have hamp1 : amp ≤ ONE := by
    rw [hamp]
    exact Nat.div_le_of_le_mul (Nat.mul_le_mul_right _ hle)
  have hneed : ∀ x, amp * x / ONE ≤ x := fun x => Nat.div_le_of_le_mul (Nat.mul_le_mul_right _ hamp1)
  constructor
  · have e1 : (rs.filter fun r => r.routes.isNone) = rs.filter fun r => !r.routes.isSome := by
      congr 1; funext r; cases r.routes <;> rfl
    have e2 : (1000000000000000000 : Nat) = ONE := rfl
    rw [List.map_map, e1, e2, List.length_map]
    have h6 : (((rs.filter fun r => r.routes.isSome).map (leastProceeds ∘ fun r : SimOut =>
        Msg.swapExactIn contract (r.routes.getD []) r.amountIn (amp * r.simAmountOut / ONE))).sum) =
        ((rs.filter fun r => r.routes.isSome).map fun r => amp * r.simAmountOut / ONE).sum := rfl
    rw [h6]
    have h2 := sum_filter_add (fun r : SimOut => r.routes.isSome) (fun r => r.simAmountOut) rs
    generalize (rs.filter fun r => r.routes.isSome) = xs at *
    generalize (rs.filter fun r => !r.routes.isSome) = ys at *
    have h7 : ∀ xs : List SimOut, amp * (xs.map (·.simAmountOut)).sum ≤
        ONE * ((xs.map fun r => amp * r.simAmountOut / ONE).sum + xs.length) := by
      intro xs
      induction xs with
      | nil => simp
      | cons x xs ih =>
        simp only [List.map_cons, List.sum_cons, List.length_cons]
        have := Nat.lt_mul_div_succ (amp * x.simAmountOut) hp
        have e : ONE * (amp * x.simAmountOut / ONE + (xs.map fun r => amp * r.simAmountOut / ONE).sum + (xs.length + 1)) =
            ONE * (amp * x.simAmountOut / ONE + 1) + ONE * ((xs.map fun r => amp * r.simAmountOut / ONE).sum + xs.length) := by
          rw [← Nat.mul_add]; congr 1; omega
        rw [e, Nat.mul_add amp]
        exact Nat.add_le_add this.le ih
    have h8 := h7 xs
    have h9 : amp * (ys.map (·.simAmountOut)).sum ≤ ONE * (ys.map (·.simAmountOut)).sum := Nat.mul_le_mul_right _ hamp1
    have h10 : minOutput * ONE < (amp + 1) * t := by
      rw [hamp]
      have := Nat.lt_mul_div_succ (minOutput * ONE) (by omega : 0 < t)
      rw [Nat.mul_comm t] at this
      exact this
    rw [← hsum] at h2
    rw [← hsum, ← Nat.lt_succ_iff]
    generalize (xs.map (·.simAmountOut)).sum = A at *
    generalize (ys.map (·.simAmountOut)).sum = B at *
    generalize (xs.map fun r => amp * r.simAmountOut / ONE).sum = S at *
    subst h2
    have h11 : ONE * minOutput < ONE * (S + xs.length) + ONE * B + (A + B) := by
      rw [Nat.add_mul, Nat.mul_add, Nat.one_mul, Nat.mul_comm] at h10
      omega
    have h12 := Nat.lt_mul_div_succ (A + B) hp
    have h13 : ONE * minOutput < ONE * (S + B + xs.length + (A + B) / ONE).succ := by
      calc ONE * minOutput < ONE * (S + xs.length) + ONE * B + (A + B) := h11
        _ ≤ ONE * (S + xs.length) + ONE * B + ONE * ((A + B) / ONE + 1) := by omega
        _ = ONE * (S + B + xs.length + (A + B) / ONE).succ := by
            rw [← Nat.mul_add, ← Nat.mul_add]; congr 1; omega
    exact Nat.lt_of_mul_lt_mul_left h13
  · generalize hx : rs.filter (fun r => r.routes.isSome) = xs
    have hall : ∀ r ∈ xs, r.routes.isSome := by
      intro r hr; rw [← hx] at hr; exact (List.mem_filter.1 hr).2
    clear hx
    induction xs with
    | nil => exact .nil
    | cons r xs ih =>
      rw [List.map_cons]
      refine .cons ?_ (ih fun r hr => hall r (List.mem_cons_of_mem _ hr))
      obtain ⟨routes, hr⟩ := Option.isSome_iff_exists.1 (hall r List.mem_cons_self)
      exact ⟨routes, _, hr, hneed _, by rw [hr]; rfl⟩

/-- A sale with a minimum of 349 of simulated 350: the messages guarantee 99 and 199, the entry without swap is 50,
one unit short of the minimum. -/
example : (do
      let x ← tokenGivenIndexIn zapSim 100 "osmo"
      outMsgs x.2 "zap" 349) =
    .ok [.swapExactIn "zap" [⟨1, "osmo"⟩] ⟨"atom", 100⟩ 99,
      .swapExactIn "zap" [⟨1, "atom"⟩, ⟨2, "osmo"⟩] ⟨"juno", 200⟩ 199] := by decide +kernel

/-! ### C47 -/

private theorem forall₂_filter {α β : Type} {R : α → β → Prop} {p : α → Bool} {q : β → Bool} {xs : List α} {ys : List β}
    (h : List.Forall₂ R xs ys) (hpq : ∀ x y, R x y → p x = q y) : List.Forall₂ R (xs.filter p) (ys.filter q) := by
  induction h with
  | nil => exact .nil
  | @cons x y xs ys hxy _ ih =>
    have e := hpq x y hxy
    cases hp : p x
    · rw [hp] at e
      rw [List.filter_cons_of_neg (by simp [hp]), List.filter_cons_of_neg (by simp [← e])]
      exact ih
    · rw [hp] at e
      rw [List.filter_cons_of_pos hp, List.filter_cons_of_pos e.symm]
      exact .cons hxy ih

private theorem forall₂_trans {α β γ : Type} {R : α → β → Prop} {S : β → γ → Prop} {T : α → γ → Prop}
    (hT : ∀ x y z, R x y → S y z → T x z) : ∀ {xs : List α} {ys : List β} {zs : List γ},
    List.Forall₂ R xs ys → List.Forall₂ S ys zs → List.Forall₂ T xs zs := by
  intro xs ys zs h
  induction h generalizing zs with
  | nil => intro h; cases h; exact .nil
  | cons hxy _ ih => intro h; cases h with | cons hyz h => exact .cons (hT _ _ _ hxy hyz) (ih h)

/-- **C47 (purchase).** The messages of a purchase, one for each basket entry other than the input denom, in the order
of the basket: the hops are those of the first route supplied by the user from the input denom to the denom of the
entry, in the order in which the user gave them, and the bought coin is the basket entry. -/
theorem C47_purchase_route_order {s : Simulator} {index : Nat} {input : Denom} {t : Nat} {rs : List SimIn}
    {contract : Addr} {maxInput : Nat} {ms : List Msg} (h : tokenGivenIndexOut s index input = .ok (t, rs))
    (hm : inMsgs rs contract maxInput = .ok ms) :
    List.Forall₂ (fun c m => ∃ info limit, s.swapInfo.find? (fun i => decide (i.src = input ∧ i.dst = c.denom)) = some info ∧
        m = .swapExactOut contract info.routes c limit)
      ((basket s.units index).filter fun c => decide (c.denom ≠ input)) ms := by
  have h2 := (C43_spending_limits hm).2
  obtain ⟨h3, _⟩ := tokenGivenIndexOut_spec h
  have h4 := forall₂_filter (p := fun e => decide (e.1 ≠ input)) (q := fun r => r.routes.isSome) h3 (by
    rintro ⟨d, u⟩ r ⟨_, h1, h2⟩
    by_cases hd : d = input
    · rw [(h1 hd).2]; simp [hd]
    · obtain ⟨i, _, hi⟩ := h2 hd
      rw [hi]; simp [hd])
  have h5 := forall₂_trans (T := fun (e : Denom × Nat) (m : Msg) => e.1 ≠ input → ∃ info limit,
      s.swapInfo.find? (fun i => decide (i.src = input ∧ i.dst = e.1)) = some info ∧
        m = .swapExactOut contract info.routes ⟨e.1, part e.2 index⟩ limit) (by
      rintro e r m ⟨ha, _, hb⟩ ⟨routes, limit, hr, _, rfl⟩ hne
      obtain ⟨i, hi, hir⟩ := hb hne
      rw [hr] at hir
      cases hir
      exact ⟨i, limit, hi, by rw [List.reverse_reverse, ha]; rfl⟩) h4 h2
  unfold basket
  rw [List.filter_map, List.forall₂_map_left_iff]
  have h6 : ∀ e ∈ s.units.filter (fun e => decide (e.1 ≠ input)), e.1 ≠ input := by
    intro e he; simpa using (List.mem_filter.1 he).2
  generalize hx : s.units.filter (fun e => decide (e.1 ≠ input)) = xs at h5 h6
  have e7 : s.units.filter ((fun c : Coin => decide (c.denom ≠ input)) ∘ fun e : Denom × Nat =>
      (⟨e.1, part e.2 index⟩ : Coin)) = xs := by rw [← hx]; rfl
  rw [e7]
  clear hx h4 h3 h2 e7 hm h
  induction h5 with
  | nil => exact .nil
  | cons ha _ ih => exact .cons (ha (h6 _ List.mem_cons_self)) (ih fun e he => h6 e (List.mem_cons_of_mem _ he))

/-- The purchases of atom and of juno over two pools. -/
example : ((tokenGivenIndexOut zapSim 100 "osmo").bind fun x => inMsgs x.2 "zap" 355) =
    .ok [.swapExactOut "zap" [⟨1, "osmo"⟩] ⟨"atom", 100⟩ 101,
      .swapExactOut "zap" [⟨2, "osmo"⟩, ⟨1, "atom"⟩] ⟨"juno", 200⟩ 202] := by decide +kernel

/-- **C47 (sale).** The same for the messages of a sale. -/
theorem C47_sale_route_order {s : Simulator} {index : Nat} {output : Denom} {t : Nat} {rs : List SimOut}
    {contract : Addr} {minOutput : Nat} {ms : List Msg} (h : tokenGivenIndexIn s index output = .ok (t, rs))
    (hm : outMsgs rs contract minOutput = .ok ms) :
    List.Forall₂ (fun c m => ∃ info least, s.swapInfo.find? (fun i => decide (i.src = c.denom ∧ i.dst = output)) = some info ∧
        m = .swapExactIn contract info.routes c least)
      ((basket s.units index).filter fun c => decide (c.denom ≠ output)) ms := by
  have h2 := (C44_least_proceeds_partial hm).2
  obtain ⟨h3, _⟩ := tokenGivenIndexIn_spec h
  have h4 := forall₂_filter (p := fun e => decide (e.1 ≠ output)) (q := fun r => r.routes.isSome) h3 (by
    rintro ⟨d, u⟩ r ⟨_, h1, h2⟩
    by_cases hd : d = output
    · rw [(h1 hd).2]; simp [hd]
    · obtain ⟨i, _, hi⟩ := h2 hd
      rw [hi]; simp [hd])
  have h5 := forall₂_trans (T := fun (e : Denom × Nat) (m : Msg) => e.1 ≠ output → ∃ info least,
      s.swapInfo.find? (fun i => decide (i.src = e.1 ∧ i.dst = output)) = some info ∧
        m = .swapExactIn contract info.routes ⟨e.1, part e.2 index⟩ least) (by
      rintro e r m ⟨ha, _, hb⟩ ⟨routes, limit, hr, _, rfl⟩ hne
      obtain ⟨i, hi, hir⟩ := hb hne
      rw [hr] at hir
      cases hir
      exact ⟨i, limit, hi, by rw [ha]; rfl⟩) h4 h2
  unfold basket
  rw [List.filter_map, List.forall₂_map_left_iff]
  have h6 : ∀ e ∈ s.units.filter (fun e => decide (e.1 ≠ output)), e.1 ≠ output := by
    intro e he; simpa using (List.mem_filter.1 he).2
  generalize hx : s.units.filter (fun e => decide (e.1 ≠ output)) = xs at h5 h6
  have e7 : s.units.filter ((fun c : Coin => decide (c.denom ≠ output)) ∘ fun e : Denom × Nat =>
      (⟨e.1, part e.2 index⟩ : Coin)) = xs := by rw [← hx]; rfl
  rw [e7]
  clear hx h4 h3 h2 e7 hm h
  induction h5 with
  | nil => exact .nil
  | cons ha _ ih => exact .cons (ha (h6 _ List.mem_cons_self)) (ih fun e he => h6 e (List.mem_cons_of_mem _ he))

/-- The sales of atom and of juno over two pools. -/
example : ((tokenGivenIndexIn zapSim 100 "osmo").bind fun x => outMsgs x.2 "zap" 349) =
    .ok [.swapExactIn "zap" [⟨1, "osmo"⟩] ⟨"atom", 100⟩ 99,
      .swapExactIn "zap" [⟨1, "atom"⟩, ⟨2, "osmo"⟩] ⟨"juno", 200⟩ 199] := by decide +kernel

/-! ### C56 -/

private theorem mem_insertId {n k : Nat} : ∀ {l : List Nat}, k ∈ insertId n l ↔ k = n ∨ k ∈ l := by
  intro l
  induction l with
  | nil => simp [insertId]
  | cons m ms ih =>
    rw [insertId]
    split
    · simp
    · split
      · rename_i h; subst h; simp
      · simp only [List.mem_cons, ih]; tauto

private theorem insertId_sorted {n : Nat} : ∀ {l : List Nat}, l.Pairwise (· < ·) → (insertId n l).Pairwise (· < ·) := by
  intro l
  induction l with
  | nil => intro _; simp [insertId]
  | cons m ms ih =>
    intro h
    rw [List.pairwise_cons] at h
    rw [insertId]
    split
    · rename_i hlt
      refine List.pairwise_cons.2 ⟨?_, List.pairwise_cons.2 h⟩
      intro k hk
      rcases List.mem_cons.1 hk with rfl | hk
      · exact hlt
      · exact hlt.trans (h.1 k hk)
    · split
      · exact List.pairwise_cons.2 h
      · refine List.pairwise_cons.2 ⟨?_, ih h.2⟩
        intro k hk
        rcases mem_insertId.1 hk with rfl | hk
        · omega
        · exact h.1 k hk

private theorem foldInsert {xs : List Nat} : ∀ {acc : List Nat}, acc.Pairwise (· < ·) →
    (xs.foldl (fun acc n => insertId n acc) acc).Pairwise (· < ·) ∧
      ∀ k, k ∈ xs.foldl (fun acc n => insertId n acc) acc ↔ k ∈ acc ∨ k ∈ xs := by
  induction xs with
  | nil => intro acc h; exact ⟨h, by simp⟩
  | cons x xs ih =>
    intro acc h
    obtain ⟨h1, h2⟩ := ih (insertId_sorted (n := x) h)
    refine ⟨h1, fun k => ?_⟩
    rw [List.foldl_cons, h2, mem_insertId, List.mem_cons]
    tauto

/-- **C56 (ids).** The ids asked for are exactly the pools named in the routes, in strictly increasing order (so each
once). -/
theorem C56_pool_ids (infos : List SwapInfo) :
    (extractPoolIds infos).Pairwise (· < ·) ∧
      ∀ k, k ∈ extractPoolIds infos ↔ ∃ i ∈ infos, ∃ r ∈ i.routes, r.poolId = k := by
  obtain ⟨h1, h2⟩ := foldInsert (xs := infos.flatMap fun i => i.routes.map (·.poolId)) (acc := []) List.Pairwise.nil
  refine ⟨h1, fun k => ?_⟩
  unfold extractPoolIds
  rw [h2]
  simp

/-- Repeated pools are listed once. -/
example : extractPoolIds [⟨"osmo", "atom", [⟨7, "osmo"⟩]⟩, ⟨"osmo", "juno", [⟨3, "osmo"⟩, ⟨7, "atom"⟩]⟩] = [3, 7] := by
  decide

private theorem poolsMap_get_aux {k : Nat} {p : Pool} : ∀ {ps : List Pool} {m : KV Nat Pool},
    (∀ q ∈ ps, q.id = k → q = p) → (m.get k = some p ∨ p ∈ ps ∧ p.id = k) →
      (ps.foldl (fun m p => m.set p.id p) m).get k = some p := by
  intro ps
  induction ps with
  | nil => intro m _ h; rcases h with h | h; exacts [h, absurd h.1 List.not_mem_nil]
  | cons q ps ih =>
    intro m hq h
    rw [List.foldl_cons]
    apply ih fun r hr => hq r (List.mem_cons_of_mem _ hr)
    by_cases hk : q.id = k
    · left
      have e := hq q List.mem_cons_self hk
      rw [hk, e, KV.get_set_self]
    · rcases h with h | ⟨h, hpk⟩
      · left; rw [KV.get_set_ne _ _ hk, h]
      · rcases List.mem_cons.1 h with rfl | h
        · exact absurd hpk hk
        · exact Or.inr ⟨h, hpk⟩

/-- **C56 (pools).** If the chain answers each id with a pool of that id, or with a pool of unknown type, then after a
successful query every hop of every supplied route finds exactly the pool the chain returned for its id, unless that
pool's type is unknown. -/
theorem C56_every_hop_finds_its_pool {ask : Nat → Res (Option Pool)} {infos : List SwapInfo} {pools : List Pool}
    (hask : ∀ k p, ask k = .ok (some p) → p.id = k) (h : queryPools ask (extractPoolIds infos) = .ok pools) :
    ∀ i ∈ infos, ∀ r ∈ i.routes,
      (∃ p, ask r.poolId = .ok (some p) ∧ (poolsMap pools).get r.poolId = some p) ∨ ask r.poolId = .ok none := by
  intro i hi r hr
  have hmem : r.poolId ∈ extractPoolIds infos := ((C56_pool_ids infos).2 _).2 ⟨i, hi, r, hr, rfl⟩
  simp only [queryPools, bind_eq_ok, mapM_eq_ok, Except.ok.injEq] at h
  obtain ⟨answers, h1, rfl⟩ := h
  have hin : ∀ (ids : List Nat) (answers : List (Option Pool)), List.Forall₂ (fun k a => ask k = .ok a) ids answers →
      (∀ k ∈ ids, ∃ a ∈ answers, ask k = .ok a) ∧ (∀ a ∈ answers, ∃ k ∈ ids, ask k = .ok a) := by
    intro ids answers h
    induction h with
    | nil => exact ⟨fun k h => absurd h List.not_mem_nil, fun k h => absurd h List.not_mem_nil⟩
    | cons hxy _ ih =>
      constructor
      · intro k hk
        rcases List.mem_cons.1 hk with rfl | hk
        · exact ⟨_, List.mem_cons_self, hxy⟩
        · obtain ⟨a, ha, e⟩ := ih.1 k hk
          exact ⟨a, List.mem_cons_of_mem _ ha, e⟩
      · intro a ha
        rcases List.mem_cons.1 ha with rfl | ha
        · exact ⟨_, List.mem_cons_self, hxy⟩
        · obtain ⟨k, hk, e⟩ := ih.2 a ha
          exact ⟨k, List.mem_cons_of_mem _ hk, e⟩
  obtain ⟨ha, hb⟩ := hin _ _ h1
  obtain ⟨a, ha', e⟩ := ha _ hmem
  cases a with
  | none => exact Or.inr e
  | some p =>
    refine Or.inl ⟨p, e, ?_⟩
    refine poolsMap_get_aux (fun q hq hid => ?_) (Or.inr ⟨List.mem_filterMap.2 ⟨some p, ha', rfl⟩, hask _ _ e⟩)
    obtain ⟨x, hx, hxq⟩ := List.mem_filterMap.1 hq
    obtain rfl : x = some q := hxq
    obtain ⟨k, _, hk⟩ := hb _ hx
    have := hask _ _ hk
    rw [hid] at this
    subst this
    rw [e] at hk
    cases hk
    rfl

/-- The ids of the example routes. -/
example : extractPoolIds zapSim.swapInfo = [1, 2] := by decide

end Ibcx.Props
