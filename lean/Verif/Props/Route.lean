import Verif.Spec.Route
import Verif.Props.Zap
import Verif.KVLemmas
/-!
# C70, C71: the simulation is the sequence of swaps it stands for, the search a sequence of corrections
-/

namespace Ibcx.Props
open Ibcx Ibcx.Pool Ibcx.Spec

theorem kv_get_set {K V : Type} [DecidableEq K] (m : KV K V) (k k' : K) (v : V) :
    (m.set k v).get k' = if k' = k then some v else m.get k' := by
  induction m with
  | nil => simp only [KV.set, KV.get]; split <;> grind
  | cons e m ih =>
    obtain ⟨a, b⟩ := e
    by_cases h : a = k
    · simp only [KV.set, h, if_true, KV.get]; grind
    · simp only [KV.set, h, if_false, KV.get, ih]; grind

private theorem get_put (m : KV Nat Pool) (n : Nat) (p : Pool) : (m.set n p).get = Pools.put m.get n p := by
  funext k; exact kv_get_set m n k p

theorem poolsMap_get (ps : List Pool) : (poolsMap ps).get = byId ps := by
  have key : ∀ (ps : List Pool) (m : KV Nat Pool),
      (ps.foldl (fun m p => m.set p.id p) m).get = fun n => (byId ps n).or (m.get n) := by
    intro ps
    induction ps with
    | nil => intro m; funext n; simp [byId]
    | cons p ps ih =>
      intro m
      rw [List.foldl_cons, ih]
      funext n
      simp only [byId, List.reverse_cons, List.find?_append, Option.or_assoc, kv_get_set]
      congr 1
      by_cases h : p.id = n
      · simp [h]
      · simp [h, Ne.symm h]
  rw [poolsMap, key]
  funext n
  simp [KV.get]

private theorem load_eq_ok {K V : Type} [DecidableEq K] {m : KV K V} {k : K} {v : V} :
    m.load k = .ok v ↔ m.get k = some v := by
  unfold KV.load
  cases m.get k <;> simp

private theorem chk_eq_ok' {n r : Nat} : chk n = .ok r ↔ n < 2 ^ 128 ∧ r = n := by
  unfold chk
  have : U128 = 2 ^ 128 := rfl
  rw [← this]
  generalize U128 = U
  split
  · rename_i h
    constructor
    · rintro h'
      cases h'
      exact ⟨h, rfl⟩
    · rintro ⟨_, rfl⟩
      rfl
  · rename_i h
    constructor
    · intro h'
      cases h'
    · rintro ⟨h', _⟩
      exact absurd h' h

theorem hopIn_eq_ok {env : Env} {m m' : KV Nat Pool} {c c' : Coin} {r : SwapRoute} :
    hopIn env (m, c) r = .ok (m', c') ↔
      ∃ p p' out, m.get r.poolId = some p ∧ Sold env c r.tokenDenom p out p' ∧ out < 2 ^ 128 ∧
        m' = m.set r.poolId p' ∧ c' = ⟨r.tokenDenom, out⟩ := by
  simp only [hopIn, bind_eq_ok, load_eq_ok, chk_eq_ok', Except.ok.injEq, Prod.mk.injEq]
  constructor
  · rintro ⟨p, hp, f, hf, ⟨_, p'⟩, hs, out, ⟨hlt, rfl⟩, rfl, rfl⟩
    refine ⟨p, p', out, hp, ?_, hlt, rfl, rfl⟩
    cases p with
    | weighted w =>
      simp only [Pool.spreadFactor, Except.ok.injEq] at hf
      simp only [Pool.swapExactIn, bind_eq_ok, Except.ok.injEq, Prod.mk.injEq] at hs
      obtain ⟨⟨o, w'⟩, h, rfl, rfl⟩ := hs
      subst hf
      exact .weighted h
    | queried id s =>
      simp only [Pool.spreadFactor] at hf
      simp only [Pool.swapExactIn, Core.simSwapExactIn, bind_eq_ok, Except.ok.injEq, Prod.mk.injEq] at hs
      obtain ⟨o, h, rfl, rfl⟩ := hs
      subst hf
      exact .chain h
  · rintro ⟨p, p', out, hp, hs, hlt, rfl, rfl⟩
    cases hs with
    | @weighted w w' _ h =>
      exact ⟨_, hp, w.swapFee, rfl, (out, .weighted w'), by simp [Pool.swapExactIn, h, ok_bind], out, ⟨hlt, rfl⟩,
        rfl, rfl⟩
    | @chain id fee _ h =>
      exact ⟨_, hp, fee, rfl, (out, .queried id (.ok fee)),
        by simp [Pool.swapExactIn, Core.simSwapExactIn, h, ok_bind], out, ⟨hlt, rfl⟩, rfl, rfl⟩

theorem hopOut_eq_ok {env : Env} {m m' : KV Nat Pool} {c c' : Coin} {r : SwapRoute} :
    hopOut env (m, c) r = .ok (m', c') ↔
      ∃ p p' inp, m.get r.poolId = some p ∧ Bought env c r.tokenDenom p inp p' ∧ inp < 2 ^ 128 ∧
        m' = m.set r.poolId p' ∧ c' = ⟨r.tokenDenom, inp⟩ := by
  simp only [hopOut, bind_eq_ok, load_eq_ok, chk_eq_ok', Except.ok.injEq, Prod.mk.injEq]
  constructor
  · rintro ⟨p, hp, f, hf, ⟨_, p'⟩, hs, out, ⟨hlt, rfl⟩, rfl, rfl⟩
    refine ⟨p, p', out, hp, ?_, hlt, rfl, rfl⟩
    cases p with
    | weighted w =>
      simp only [Pool.spreadFactor, Except.ok.injEq] at hf
      simp only [Pool.swapExactOut, bind_eq_ok, Except.ok.injEq, Prod.mk.injEq] at hs
      obtain ⟨⟨o, w'⟩, h, rfl, rfl⟩ := hs
      subst hf
      exact .weighted h
    | queried id s =>
      simp only [Pool.spreadFactor] at hf
      simp only [Pool.swapExactOut, Core.simSwapExactOut, bind_eq_ok, Except.ok.injEq, Prod.mk.injEq] at hs
      obtain ⟨o, h, rfl, rfl⟩ := hs
      subst hf
      exact .chain h
  · rintro ⟨p, p', out, hp, hs, hlt, rfl, rfl⟩
    cases hs with
    | @weighted w w' _ h =>
      exact ⟨_, hp, w.swapFee, rfl, (out, .weighted w'), by simp [Pool.swapExactOut, h, ok_bind], out, ⟨hlt, rfl⟩,
        rfl, rfl⟩
    | @chain id fee _ h =>
      exact ⟨_, hp, fee, rfl, (out, .queried id (.ok fee)),
        by simp [Pool.swapExactOut, Core.simSwapExactOut, h, ok_bind], out, ⟨hlt, rfl⟩, rfl, rfl⟩

theorem foldIn_eq_ok {env : Env} : ∀ {rs : List SwapRoute} {m : KV Nat Pool} {c : Coin} {ps : Pools} {n : Nat},
    (∃ m' c', rs.foldlM (hopIn env) (m, c) = .ok (m', c') ∧ m'.get = ps ∧ c'.amount = n) ↔
      SoldAlong env m.get c rs ps n := by
  intro rs
  induction rs with
  | nil =>
    intro m c ps n
    constructor
    · rintro ⟨m', c', h, rfl, rfl⟩
      cases h
      exact .done _ _
    · intro h
      cases h
      exact ⟨m, c, rfl, rfl, rfl⟩
  | cons r rs ih =>
    intro m c ps n
    constructor
    · rintro ⟨m', c', h, rfl, rfl⟩
      simp only [List.foldlM_cons, bind_eq_ok] at h
      obtain ⟨⟨m1, c1⟩, h1, h2⟩ := h
      obtain ⟨p, p', out, hp, hs, hlt, rfl, rfl⟩ := hopIn_eq_ok.1 h1
      have := ih.1 ⟨m', c', h2, rfl, rfl⟩
      rw [get_put] at this
      exact .hop hp hs hlt this
    · intro h
      cases h with
      | hop h1 h2 h3 h4 =>
        rw [← get_put] at h4
        obtain ⟨m', c', h5, h6, h7⟩ := ih.2 h4
        refine ⟨m', c', ?_, h6, h7⟩
        simp only [List.foldlM_cons, bind_eq_ok]
        exact ⟨_, hopIn_eq_ok.2 ⟨_, _, _, h1, h2, h3, rfl, rfl⟩, h5⟩

theorem foldOut_eq_ok {env : Env} : ∀ {rs : List SwapRoute} {m : KV Nat Pool} {c : Coin} {ps : Pools} {n : Nat},
    (∃ m' c', rs.foldlM (hopOut env) (m, c) = .ok (m', c') ∧ m'.get = ps ∧ c'.amount = n) ↔
      BoughtBack env m.get c rs ps n := by
  intro rs
  induction rs with
  | nil =>
    intro m c ps n
    constructor
    · rintro ⟨m', c', h, rfl, rfl⟩
      cases h
      exact .done _ _
    · intro h
      cases h
      exact ⟨m, c, rfl, rfl, rfl⟩
  | cons r rs ih =>
    intro m c ps n
    constructor
    · rintro ⟨m', c', h, rfl, rfl⟩
      simp only [List.foldlM_cons, bind_eq_ok] at h
      obtain ⟨⟨m1, c1⟩, h1, h2⟩ := h
      obtain ⟨p, p', out, hp, hs, hlt, rfl, rfl⟩ := hopOut_eq_ok.1 h1
      have := ih.1 ⟨m', c', h2, rfl, rfl⟩
      rw [get_put] at this
      exact .hop hp hs hlt this
    · intro h
      cases h with
      | hop h1 h2 h3 h4 =>
        rw [← get_put] at h4
        obtain ⟨m', c', h5, h6, h7⟩ := ih.2 h4
        refine ⟨m', c', ?_, h6, h7⟩
        simp only [List.foldlM_cons, bind_eq_ok]
        exact ⟨_, hopOut_eq_ok.2 ⟨_, _, _, h1, h2, h3, rfl, rfl⟩, h5⟩

private theorem outRoutes_eq_ok {s : Simulator} {index : Nat} {output : Denom} :
    ∀ {us : Core.Units} {m : KV Nat Pool} {outs : List Nat},
      (∃ rs, outRoutes s index output us m = .ok rs ∧ rs.map (·.simAmountOut) = outs) ↔
        (∀ c ∈ basket us index, c.amount < 2 ^ 128) ∧
          BasketSold s.env s.swapInfo output m.get (basket us index) outs := by
  intro us
  induction us with
  | nil =>
    intro m outs
    constructor
    · rintro ⟨rs, h, rfl⟩
      cases h
      exact ⟨by simp [basket], .nil _⟩
    · rintro ⟨_, h⟩
      cases h
      exact ⟨[], rfl, rfl⟩
  | cons e us ih =>
    obtain ⟨d, u⟩ := e
    intro m outs
    have eb : basket ((d, u) :: us) index = ⟨d, u * index / ONE⟩ :: basket us index := rfl
    have e128 : U128 = 2 ^ 128 := rfl
    rw [eb]
    by_cases hd : d = output
    · constructor
      · rintro ⟨rs, h, rfl⟩
        simp only [outRoutes, hd, if_true, bind_eq_ok, mulInt_eq_ok, Except.ok.injEq] at h
        obtain ⟨a, ⟨ha, rfl⟩, x, rfl, rs', h, rfl⟩ := h
        obtain ⟨i1, i2⟩ := ih.1 ⟨rs', h, rfl⟩
        refine ⟨?_, .keep hd i2⟩
        simp only [List.mem_cons, forall_eq_or_imp]
        exact ⟨e128 ▸ ha, i1⟩
      · rintro ⟨h1, h2⟩
        simp only [List.mem_cons, forall_eq_or_imp] at h1
        cases h2 with
        | keep _ h3 =>
          obtain ⟨rs, h4, rfl⟩ := ih.2 ⟨h1.2, h3⟩
          refine ⟨⟨⟨d, u * index / ONE⟩, u * index / ONE, none⟩ :: rs, ?_, rfl⟩
          simp only [outRoutes, hd, if_true, bind_eq_ok, mulInt_eq_ok, Except.ok.injEq]
          exact ⟨_, ⟨e128 ▸ h1.1, rfl⟩, _, rfl, rs, h4, rfl⟩
        | sell h3 => exact absurd hd h3
    · constructor
      · rintro ⟨rs, h, rfl⟩
        simp only [outRoutes, hd, if_false, bind_eq_ok, mulInt_eq_ok, estOutGivenIn, findRoutes_eq_ok,
          Except.ok.injEq] at h
        obtain ⟨a, ⟨ha, rfl⟩, x, ⟨routes, ⟨i, hi, rfl⟩, ⟨m', c'⟩, hf, rfl⟩, rs', h, rfl⟩ := h
        obtain ⟨i1, i2⟩ := ih.1 ⟨rs', h, rfl⟩
        have hs := foldIn_eq_ok.1 ⟨m', c', hf, rfl, rfl⟩
        refine ⟨?_, .sell hd hi hs i2⟩
        simp only [List.mem_cons, forall_eq_or_imp]
        exact ⟨e128 ▸ ha, i1⟩
      · rintro ⟨h1, h2⟩
        simp only [List.mem_cons, forall_eq_or_imp] at h1
        cases h2 with
        | keep h3 => exact absurd h3 hd
        | @sell _ _ _ _ i _ _ h3 h4 h5 h6 =>
          obtain ⟨m', c', h7, rfl, rfl⟩ := foldIn_eq_ok.2 h5
          obtain ⟨rs, h8, rfl⟩ := ih.2 ⟨h1.2, h6⟩
          refine ⟨⟨⟨d, u * index / ONE⟩, c'.amount, some i.routes⟩ :: rs, ?_, rfl⟩
          simp only [outRoutes, hd, if_false, bind_eq_ok, mulInt_eq_ok, estOutGivenIn, findRoutes_eq_ok,
            Except.ok.injEq]
          exact ⟨_, ⟨e128 ▸ h1.1, rfl⟩, _, ⟨_, ⟨_, h4, rfl⟩, _, h7, rfl⟩, rs, h8, rfl⟩

private theorem inRoutes_eq_ok {s : Simulator} {index : Nat} {input : Denom} :
    ∀ {us : Core.Units} {m : KV Nat Pool} {costs : List Nat},
      (∃ rs, inRoutes s index input us m = .ok rs ∧ rs.map (·.simAmountIn) = costs) ↔
        (∀ c ∈ basket us index, c.amount < 2 ^ 128) ∧
          BasketBought s.env s.swapInfo input m.get (basket us index) costs := by
  intro us
  induction us with
  | nil =>
    intro m outs
    constructor
    · rintro ⟨rs, h, rfl⟩
      cases h
      exact ⟨by simp [basket], .nil _⟩
    · rintro ⟨_, h⟩
      cases h
      exact ⟨[], rfl, rfl⟩
  | cons e us ih =>
    obtain ⟨d, u⟩ := e
    intro m outs
    have eb : basket ((d, u) :: us) index = ⟨d, u * index / ONE⟩ :: basket us index := rfl
    have e128 : U128 = 2 ^ 128 := rfl
    rw [eb]
    by_cases hd : d = input
    · constructor
      · rintro ⟨rs, h, rfl⟩
        simp only [inRoutes, hd, if_true, bind_eq_ok, mulInt_eq_ok, Except.ok.injEq] at h
        obtain ⟨a, ⟨ha, rfl⟩, x, rfl, rs', h, rfl⟩ := h
        obtain ⟨i1, i2⟩ := ih.1 ⟨rs', h, rfl⟩
        refine ⟨?_, .keep hd i2⟩
        simp only [List.mem_cons, forall_eq_or_imp]
        exact ⟨e128 ▸ ha, i1⟩
      · rintro ⟨h1, h2⟩
        simp only [List.mem_cons, forall_eq_or_imp] at h1
        cases h2 with
        | keep _ h3 =>
          obtain ⟨rs, h4, rfl⟩ := ih.2 ⟨h1.2, h3⟩
          refine ⟨⟨u * index / ONE, ⟨d, u * index / ONE⟩, none⟩ :: rs, ?_, rfl⟩
          simp only [inRoutes, hd, if_true, bind_eq_ok, mulInt_eq_ok, Except.ok.injEq]
          exact ⟨_, ⟨e128 ▸ h1.1, rfl⟩, _, rfl, rs, h4, rfl⟩
        | buy h3 => exact absurd hd h3
    · constructor
      · rintro ⟨rs, h, rfl⟩
        simp only [inRoutes, hd, if_false, bind_eq_ok, mulInt_eq_ok, estInGivenOut, findRoutes_eq_ok,
          Except.ok.injEq] at h
        obtain ⟨a, ⟨ha, rfl⟩, x, ⟨routes, ⟨i, hi, rfl⟩, ⟨m', c'⟩, hf, rfl⟩, rs', h, rfl⟩ := h
        obtain ⟨i1, i2⟩ := ih.1 ⟨rs', h, rfl⟩
        have hs := foldOut_eq_ok.1 ⟨m', c', hf, rfl, rfl⟩
        refine ⟨?_, .buy hd hi hs i2⟩
        simp only [List.mem_cons, forall_eq_or_imp]
        exact ⟨e128 ▸ ha, i1⟩
      · rintro ⟨h1, h2⟩
        simp only [List.mem_cons, forall_eq_or_imp] at h1
        cases h2 with
        | keep h3 => exact absurd h3 hd
        | @buy _ _ _ _ i _ _ h3 h4 h5 h6 =>
          obtain ⟨m', c', h7, rfl, rfl⟩ := foldOut_eq_ok.2 h5
          obtain ⟨rs, h8, rfl⟩ := ih.2 ⟨h1.2, h6⟩
          refine ⟨⟨c'.amount, ⟨d, u * index / ONE⟩, some i.routes.reverse⟩ :: rs, ?_, rfl⟩
          simp only [inRoutes, hd, if_false, bind_eq_ok, mulInt_eq_ok, estInGivenOut, findRoutes_eq_ok,
            Except.ok.injEq]
          exact ⟨_, ⟨e128 ▸ h1.1, rfl⟩, _, ⟨_, ⟨_, h4, rfl⟩, _, h7, rfl⟩, rs, h8, rfl⟩

theorem foldAdd_eq_ok {α : Type} (f : α → Nat) : ∀ (xs : List α) (z t : Nat), z < 2 ^ 128 →
    (xs.foldlM (m := Res) (fun acc r => add acc (f r)) z = .ok t ↔ z + (xs.map f).sum < 2 ^ 128 ∧ t = z + (xs.map f).sum) := by
  intro xs
  have e128 : U128 = 2 ^ 128 := rfl
  induction xs with
  | nil =>
    intro z t hz
    rw [← e128] at hz ⊢
    generalize U128 = U at hz ⊢
    constructor
    · intro h
      cases h
      exact ⟨hz, rfl⟩
    · rintro ⟨_, rfl⟩
      rfl
  | cons x xs ih =>
    intro z t hz
    simp only [List.foldlM_cons, bind_eq_ok, add_eq_ok, List.map_cons, List.sum_cons]
    constructor
    · rintro ⟨w, ⟨h, rfl⟩, h'⟩
      rw [ih _ _ (e128 ▸ h)] at h'
      rw [← Nat.add_assoc]
      exact h'
    · intro h
      refine ⟨_, ⟨by rw [e128]; omega, rfl⟩, ?_⟩
      rw [ih _ _ (by omega), Nat.add_assoc]
      exact h

/-- **C70 (sales).** The simulated proceeds of an amount of index tokens are `t` exactly if the coins of its basket,
sold one after the other along their routes, bring proceeds that add up to `t` (and everything fits 128 bits). -/
theorem C70_sale_simulation (s : Simulator) (index : Nat) (output : Denom) (t : Nat) :
    (∃ rs, tokenGivenIndexIn s index output = .ok (t, rs)) ↔
      (∀ c ∈ basket s.units index, c.amount < 2 ^ 128) ∧
        ∃ outs, BasketSold s.env s.swapInfo output (byId s.pools) (basket s.units index) outs ∧
          t = outs.sum ∧ t < 2 ^ 128 := by
  simp only [tokenGivenIndexIn, bind_eq_ok, sumOut, Except.ok.injEq, Prod.mk.injEq]
  constructor
  · rintro ⟨_, rs, h1, t, h2, rfl, rfl⟩
    rw [foldAdd_eq_ok _ _ _ _ (by omega), Nat.zero_add] at h2
    obtain ⟨h3, h4⟩ := outRoutes_eq_ok.1 ⟨rs, h1, rfl⟩
    rw [poolsMap_get] at h4
    exact ⟨h3, _, h4, h2.2, by omega⟩
  · rintro ⟨h1, outs, h2, rfl, h3⟩
    rw [← poolsMap_get] at h2
    obtain ⟨rs, h4, rfl⟩ := outRoutes_eq_ok.2 ⟨h1, h2⟩
    exact ⟨rs, rs, h4, _, by rw [foldAdd_eq_ok _ _ _ _ (by omega), Nat.zero_add]; exact ⟨h3, rfl⟩, rfl, rfl⟩

/-- Selling 100000 index tokens worth an atom and an osmo each. -/
example : let s : Simulator :=
    { env := zapEnv
      pools := [.weighted ⟨1, 0, [⟨"osmo", 1000000, 1⟩, ⟨"atom", 1000000, 1⟩]⟩]
      swapInfo := [⟨"atom", "osmo", [⟨1, "osmo"⟩]⟩]
      units := [("atom", 10 ^ 18), ("osmo", 10 ^ 18)] }
    ((tokenGivenIndexIn s 100000 "osmo").map fun x => (x.1, x.2.map (·.simAmountOut))) =
      .ok (190909, [90909, 100000]) := by decide +kernel

/-- **C70 (purchases).** The simulated cost of an amount of index tokens is `t` exactly if the coins of its basket,
bought one after the other along their routes, cost amounts that add up to `t` (and everything fits 128 bits). -/
theorem C70_purchase_simulation (s : Simulator) (index : Nat) (input : Denom) (t : Nat) :
    (∃ rs, tokenGivenIndexOut s index input = .ok (t, rs)) ↔
      (∀ c ∈ basket s.units index, c.amount < 2 ^ 128) ∧
        ∃ costs, BasketBought s.env s.swapInfo input (byId s.pools) (basket s.units index) costs ∧
          t = costs.sum ∧ t < 2 ^ 128 := by
  simp only [tokenGivenIndexOut, bind_eq_ok, sumIn, Except.ok.injEq, Prod.mk.injEq]
  constructor
  · rintro ⟨_, rs, h1, t, h2, rfl, rfl⟩
    rw [foldAdd_eq_ok _ _ _ _ (by omega), Nat.zero_add] at h2
    obtain ⟨h3, h4⟩ := inRoutes_eq_ok.1 ⟨rs, h1, rfl⟩
    rw [poolsMap_get] at h4
    exact ⟨h3, _, h4, h2.2, by omega⟩
  · rintro ⟨h1, outs, h2, rfl, h3⟩
    rw [← poolsMap_get] at h2
    obtain ⟨rs, h4, rfl⟩ := inRoutes_eq_ok.2 ⟨h1, h2⟩
    exact ⟨rs, rs, h4, _, by rw [foldAdd_eq_ok _ _ _ _ (by omega), Nat.zero_add]; exact ⟨h3, rfl⟩, rfl, rfl⟩

/-- Two assets sold through one weighted pool: the second sale meets the pool the first one left, and gets less. -/
def sharedPool : Simulator :=
  { env := zapEnv
    pools := [.weighted ⟨1, 0, [⟨"osmo", 1000000, 1⟩, ⟨"atom", 1000000, 1⟩, ⟨"juno", 1000000, 1⟩]⟩]
    swapInfo := [⟨"atom", "osmo", [⟨1, "osmo"⟩]⟩, ⟨"juno", "osmo", [⟨1, "osmo"⟩]⟩]
    units := [("atom", 10 ^ 18), ("juno", 10 ^ 18), ("osmo", 10 ^ 18)] }

example : ((tokenGivenIndexIn sharedPool 100000 "osmo").map fun x => (x.1, x.2.map (·.simAmountOut))) =
    .ok (273553, [90909, 82644, 100000]) := by decide +kernel

/-- Buying the two-hop coin of `zapSim` walks its route backwards. -/
example : ((tokenGivenIndexOut zapSim 100 "osmo").map fun x => (x.1, x.2.map (·.simAmountIn))) =
    .ok (350, [100, 50, 200]) := by decide +kernel

/-! ### C71 -/

/-- The cost of an amount of index tokens. -/
def Costs (s : Simulator) (d : Denom) (index cost : Nat) : Prop := ∃ rs, tokenGivenIndexOut s index d = .ok (cost, rs)

/-- The proceeds of an amount of index tokens. -/
def Brings (s : Simulator) (d : Denom) (index out : Nat) : Prop := ∃ rs, tokenGivenIndexIn s index d = .ok (out, rs)

theorem ratio_iff {a b r : Nat} : ratio a b = .ok r ↔ 0 < b ∧ a * 10 ^ 18 / b < 2 ^ 128 ∧ r = a * 10 ^ 18 / b := by
  rw [ratio_eq_ok]
  have e1 : ONE = 10 ^ 18 := rfl
  have e2 : U128 = 2 ^ 128 := rfl
  rw [e1, e2]
  constructor
  · rintro ⟨h1, h2, rfl⟩
    exact ⟨by omega, h2, rfl⟩
  · rintro ⟨h1, h2, rfl⟩
    exact ⟨by omega, h2, rfl⟩

private theorem close_ratio {a b : Nat} (h0 : 0 < b) (h1 : a < b + 5000) : a * 10 ^ 18 / b < 2 ^ 128 := by
  rw [Nat.div_lt_iff_lt_mul h0]
  generalize hP : (10 : Nat) ^ 18 = P
  have hQ : 5001 * P ≤ 2 ^ 128 := by subst hP; norm_num
  have : a * P < (b + 5000) * P := (Nat.mul_lt_mul_right (by subst hP; norm_num)).2 h1
  have h2 : (b + 5000) * P ≤ b * (5001 * P) := by
    have : b + 5000 ≤ b * 5001 := by omega
    calc (b + 5000) * P ≤ (b * 5001) * P := Nat.mul_le_mul_right _ this
      _ = b * (5001 * P) := Nat.mul_assoc ..
  have h3 : b * (5001 * P) ≤ b * 2 ^ 128 := Nat.mul_le_mul_left _ hQ
  rw [Nat.mul_comm (2 ^ 128)]
  omega

theorem searchInF_ok {s : Simulator} {desired : Coin} {i v : Nat} {r : SearchIn} :
    searchInF s desired i v = .ok r ↔
      0 < v ∧ desired.amount * 10 ^ 18 / v < 2 ^ 128 ∧ r.index = desired.amount * 10 ^ 18 / v * i / 10 ^ 18 ∧
        r.index < 2 ^ 128 ∧ tokenGivenIndexOut s r.index desired.denom = .ok (r.spent, r.routes) := by
  have e1 : ONE = 10 ^ 18 := rfl
  have e2 : U128 = 2 ^ 128 := rfl
  simp only [searchInF, bind_eq_ok, ratio_iff, mulInt_eq_ok, e1, e2, Except.ok.injEq]
  constructor
  · rintro ⟨_, ⟨h1, h2, rfl⟩, _, ⟨h3, rfl⟩, ⟨t, rs⟩, h4, rfl⟩
    exact ⟨h1, h2, rfl, h3, h4⟩
  · rintro ⟨h1, h2, h3, h4, h5⟩
    exact ⟨_, ⟨h1, h2, rfl⟩, _, ⟨h3 ▸ h4, rfl⟩, _, h3 ▸ h5, by cases r; simp_all⟩

theorem searchOutF_ok {s : Simulator} {desired : Coin} {i v : Nat} {r : SearchOut} :
    searchOutF s desired v i = .ok r ↔
      0 < v ∧ desired.amount * 10 ^ 18 / v < 2 ^ 128 ∧ r.index = desired.amount * 10 ^ 18 / v * i / 10 ^ 18 ∧
        r.index < 2 ^ 128 ∧ tokenGivenIndexIn s r.index desired.denom = .ok (r.received, r.routes) := by
  have e1 : ONE = 10 ^ 18 := rfl
  have e2 : U128 = 2 ^ 128 := rfl
  simp only [searchOutF, bind_eq_ok, ratio_iff, mulInt_eq_ok, e1, e2, Except.ok.injEq]
  constructor
  · rintro ⟨_, ⟨h1, h2, rfl⟩, _, ⟨h3, rfl⟩, ⟨t, rs⟩, h4, rfl⟩
    exact ⟨h1, h2, rfl, h3, h4⟩
  · rintro ⟨h1, h2, h3, h4, h5⟩
    exact ⟨_, ⟨h1, h2, rfl⟩, _, ⟨h3 ▸ h4, rfl⟩, _, h3 ▸ h5, by cases r; simp_all⟩

private theorem searchIn_iff {s : Simulator} {desired : Coin} : ∀ {n : Nat} {acc : SearchIn} {i v : Nat},
    (∃ r, searchInLoop s desired n acc = .ok r ∧ r.index = i ∧ r.spent = v) ↔
      Search (Costs s desired.denom) desired.amount n ⟨acc.index, acc.spent⟩ ⟨i, v⟩ := by
  intro n
  induction n with
  | zero =>
    intro acc i v
    constructor
    · rintro ⟨r, h, _⟩
      cases h
    · intro h
      cases h
  | succ n ih =>
    intro acc i v
    constructor
    · rintro ⟨r, h, rfl, rfl⟩
      simp only [searchInLoop, bind_eq_ok] at h
      obtain ⟨acc', h1, err, h2, h⟩ := h
      have hc : Corrected (Costs s desired.denom) desired.amount ⟨acc.index, acc.spent⟩ ⟨acc'.index, acc'.spent⟩ := by
        obtain ⟨a, b, c, d, e⟩ := searchInF_ok.1 h1
        exact ⟨a, b, c, d, _, e⟩
      have hpos := (ratio_iff.1 h2).1
      split at h
      · rename_i he
        rw [one_le_ratio h2] at he
        simp only [bind_eq_ok, sub_eq_ok] at h
        obtain ⟨gap, ⟨_, rfl⟩, h⟩ := h
        split at h
        · rename_i hg
          cases h
          exact .stop hc ⟨hpos, he, by unfold MAX_ERROR at hg; show desired.amount < r.spent + 5000; omega⟩
        · rename_i hg
          refine .more hc ?_ (ih.1 ⟨r, h, rfl, rfl⟩)
          rintro ⟨_, _, h3⟩
          unfold MAX_ERROR at hg
          have : desired.amount < acc'.spent + 5000 := h3
          omega
      · rename_i he
        rw [one_le_ratio h2] at he
        exact .more hc (fun h3 => he h3.2.1) (ih.1 ⟨r, h, rfl, rfl⟩)
    · intro h
      cases h with
      | stop h1 h2 =>
        obtain ⟨a, b, c, d, rs, e⟩ := h1
        obtain ⟨f, g, k⟩ := h2
        simp only at a b c d e f g k
        refine ⟨⟨v, i, rs⟩, ?_, rfl, rfl⟩
        have hr : ratio desired.amount v = .ok (desired.amount * 10 ^ 18 / v) := ratio_iff.2 ⟨f, close_ratio f k, rfl⟩
        simp only [searchInLoop, bind_eq_ok]
        refine ⟨⟨v, i, rs⟩, searchInF_ok.2 ⟨a, b, c, d, e⟩, _, hr, ?_⟩
        rw [if_pos ((one_le_ratio hr).2 g)]
        simp only [bind_eq_ok, sub_eq_ok]
        exact ⟨_, ⟨g, rfl⟩, by rw [if_pos (by unfold MAX_ERROR; omega)]⟩
      | @more _ _ t' _ h1 h2 h3 =>
        obtain ⟨i', v'⟩ := t'
        obtain ⟨a, b, c, d, rs, e⟩ := h1
        simp only at a b c d e
        obtain ⟨r, h4, h5, h6⟩ := (ih (acc := ⟨v', i', rs⟩)).2 h3
        refine ⟨r, ?_, h5, h6⟩
        have hn : 0 < v' ∧ desired.amount * 10 ^ 18 / v' < 2 ^ 128 := by
          cases h3 with
          | stop h _ => exact ⟨h.1, h.2.1⟩
          | more h _ _ => exact ⟨h.1, h.2.1⟩
        have hr : ratio desired.amount v' = .ok (desired.amount * 10 ^ 18 / v') := ratio_iff.2 ⟨hn.1, hn.2, rfl⟩
        simp only [searchInLoop, bind_eq_ok]
        refine ⟨⟨v', i', rs⟩, searchInF_ok.2 ⟨a, b, c, d, e⟩, _, hr, ?_⟩
        split
        · rename_i he
          rw [one_le_ratio hr] at he
          simp only [bind_eq_ok, sub_eq_ok]
          refine ⟨_, ⟨he, rfl⟩, ?_⟩
          rw [if_neg]
          · exact h4
          · intro hg
            unfold MAX_ERROR at hg
            exact h2 ⟨hn.1, he, by show desired.amount < v' + 5000; omega⟩
        · exact h4

private theorem searchOut_iff {s : Simulator} {desired : Coin} : ∀ {n : Nat} {acc : SearchOut} {i v : Nat},
    (∃ r, searchOutLoop s desired n acc = .ok r ∧ r.index = i ∧ r.received = v) ↔
      Search (Brings s desired.denom) desired.amount n ⟨acc.index, acc.received⟩ ⟨i, v⟩ := by
  intro n
  induction n with
  | zero =>
    intro acc i v
    constructor
    · rintro ⟨r, h, _⟩
      cases h
    · intro h
      cases h
  | succ n ih =>
    intro acc i v
    constructor
    · rintro ⟨r, h, rfl, rfl⟩
      simp only [searchOutLoop, bind_eq_ok] at h
      obtain ⟨acc', h1, err, h2, h⟩ := h
      have hc : Corrected (Brings s desired.denom) desired.amount ⟨acc.index, acc.received⟩
          ⟨acc'.index, acc'.received⟩ := by
        obtain ⟨a, b, c, d, e⟩ := searchOutF_ok.1 h1
        exact ⟨a, b, c, d, _, e⟩
      have hpos := (ratio_iff.1 h2).1
      split at h
      · rename_i he
        rw [one_le_ratio h2] at he
        simp only [bind_eq_ok, sub_eq_ok] at h
        obtain ⟨gap, ⟨_, rfl⟩, h⟩ := h
        split at h
        · rename_i hg
          cases h
          exact .stop hc ⟨hpos, he, by unfold MAX_ERROR at hg; show desired.amount < r.received + 5000; omega⟩
        · rename_i hg
          refine .more hc ?_ (ih.1 ⟨r, h, rfl, rfl⟩)
          rintro ⟨_, _, h3⟩
          unfold MAX_ERROR at hg
          have : desired.amount < acc'.received + 5000 := h3
          omega
      · rename_i he
        rw [one_le_ratio h2] at he
        exact .more hc (fun h3 => he h3.2.1) (ih.1 ⟨r, h, rfl, rfl⟩)
    · intro h
      cases h with
      | stop h1 h2 =>
        obtain ⟨a, b, c, d, rs, e⟩ := h1
        obtain ⟨f, g, k⟩ := h2
        simp only at a b c d e f g k
        refine ⟨⟨i, v, rs⟩, ?_, rfl, rfl⟩
        have hr : ratio desired.amount v = .ok (desired.amount * 10 ^ 18 / v) := ratio_iff.2 ⟨f, close_ratio f k, rfl⟩
        simp only [searchOutLoop, bind_eq_ok]
        refine ⟨⟨i, v, rs⟩, searchOutF_ok.2 ⟨a, b, c, d, e⟩, _, hr, ?_⟩
        rw [if_pos ((one_le_ratio hr).2 g)]
        simp only [bind_eq_ok, sub_eq_ok]
        exact ⟨_, ⟨g, rfl⟩, by rw [if_pos (by unfold MAX_ERROR; omega)]⟩
      | @more _ _ t' _ h1 h2 h3 =>
        obtain ⟨i', v'⟩ := t'
        obtain ⟨a, b, c, d, rs, e⟩ := h1
        simp only at a b c d e
        obtain ⟨r, h4, h5, h6⟩ := (ih (acc := ⟨i', v', rs⟩)).2 h3
        refine ⟨r, ?_, h5, h6⟩
        have hn : 0 < v' ∧ desired.amount * 10 ^ 18 / v' < 2 ^ 128 := by
          cases h3 with
          | stop h _ => exact ⟨h.1, h.2.1⟩
          | more h _ _ => exact ⟨h.1, h.2.1⟩
        have hr : ratio desired.amount v' = .ok (desired.amount * 10 ^ 18 / v') := ratio_iff.2 ⟨hn.1, hn.2, rfl⟩
        simp only [searchOutLoop, bind_eq_ok]
        refine ⟨⟨i', v', rs⟩, searchOutF_ok.2 ⟨a, b, c, d, e⟩, _, hr, ?_⟩
        split
        · rename_i he
          rw [one_le_ratio hr] at he
          simp only [bind_eq_ok, sub_eq_ok]
          refine ⟨_, ⟨he, rfl⟩, ?_⟩
          rw [if_neg]
          · exact h4
          · intro hg
            unfold MAX_ERROR at hg
            exact h2 ⟨hn.1, he, by show desired.amount < v' + 5000; omega⟩
        · exact h4

/-- **C71 (budget).** The search for the amount affordable with `desired` ends at amount `i` and cost `v` exactly if
`(i, v)` is the first close trial after one to 256 proportional corrections of the initial guess (one million when none
is given). -/
theorem C71_search_for_input (s : Simulator) (desired : Coin) (init : Option Nat) (i v : Nat) :
    (∃ r, searchForInput s desired init = .ok r ∧ r.index = i ∧ r.spent = v) ↔
      ∃ v0, Costs s desired.denom (init.getD 1000000) v0 ∧
        Search (Costs s desired.denom) desired.amount 256 ⟨init.getD 1000000, v0⟩ ⟨i, v⟩ := by
  simp only [searchForInput, bind_eq_ok]
  constructor
  · rintro ⟨r, ⟨⟨v0, rs⟩, h1, h2⟩, h3⟩
    exact ⟨v0, ⟨rs, h1⟩, searchIn_iff.1 ⟨r, h2, h3⟩⟩
  · rintro ⟨v0, ⟨rs, h1⟩, h2⟩
    obtain ⟨r, h3, h4⟩ := (searchIn_iff (acc := ⟨v0, init.getD 1000000, rs⟩)).2 h2
    exact ⟨r, ⟨_, h1, h3⟩, h4⟩

/-- How many index tokens 100000 osmo buy in the shared pool. -/
example : ((searchForInput { sharedPool with swapInfo :=
      [⟨"osmo", "atom", [⟨1, "osmo"⟩]⟩, ⟨"osmo", "juno", [⟨1, "osmo"⟩]⟩] } ⟨"osmo", 100000⟩ (some 10)).map
        fun r => (r.spent, r.index)) = .ok (96808, 31250) := by decide +kernel

/-- **C71 (proceeds).** The same for the search for the amount that brings `desired`. -/
theorem C71_search_for_output (s : Simulator) (desired : Coin) (init : Option Nat) (i v : Nat) :
    (∃ r, searchForOutput s desired init = .ok r ∧ r.index = i ∧ r.received = v) ↔
      ∃ v0, Brings s desired.denom (init.getD 1000000) v0 ∧
        Search (Brings s desired.denom) desired.amount 256 ⟨init.getD 1000000, v0⟩ ⟨i, v⟩ := by
  simp only [searchForOutput, bind_eq_ok]
  constructor
  · rintro ⟨r, ⟨⟨v0, rs⟩, h1, h2⟩, h3⟩
    exact ⟨v0, ⟨rs, h1⟩, searchOut_iff.1 ⟨r, h2, h3⟩⟩
  · rintro ⟨v0, ⟨rs, h1⟩, h2⟩
    obtain ⟨r, h3, h4⟩ := (searchOut_iff (acc := ⟨init.getD 1000000, v0, rs⟩)).2 h2
    exact ⟨r, ⟨_, h1, h3⟩, h4⟩

/-- How many index tokens bring 200000 osmo in the shared pool. -/
example : ((searchForOutput sharedPool ⟨"osmo", 200000⟩ (some 10)).map fun r => (r.received, r.index)) =
    .ok (200000, 71308) := by decide +kernel

/-- **C71 (revised purchase).** With a minimum the purchase is revised a third (0.333333333333333333, rounded down) of
the way from the amount found towards the minimum, which must not be above the amount found. -/
theorem C71_revised_purchase (s : Simulator) (desired : Coin) (init : Option Nat) (m : Nat) (res : SearchIn)
    (est : Option SearchIn) :
    estIndexForInput s desired init (some m) = .ok (res, est) ↔
      searchForInput s desired init = .ok res ∧ m ≤ res.index ∧
        333333333333333333 * (res.index - m) / 10 ^ 18 < 2 ^ 128 ∧
        ∃ e, est = some e ∧ e.index = res.index - 333333333333333333 * (res.index - m) / 10 ^ 18 ∧
          tokenGivenIndexOut s e.index desired.denom = .ok (e.spent, e.routes) := by
  have e1 : ONE = 10 ^ 18 := rfl
  have e2 : U128 = 2 ^ 128 := rfl
  have e3 : THIRD = 333333333333333333 := rfl
  simp only [estIndexForInput, bind_eq_ok, require_eq_ok, sub_eq_ok, mulInt_eq_ok, Except.ok.injEq, Prod.mk.injEq, e1,
    e2, e3]
  constructor
  · rintro ⟨r, h1, _, h2, _, ⟨_, rfl⟩, _, ⟨h3, rfl⟩, _, ⟨_, rfl⟩, ⟨t, rs⟩, h4, rfl, rfl⟩
    exact ⟨h1, by omega, h3, _, rfl, rfl, h4⟩
  · rintro ⟨h1, h2, h3, e, rfl, h4, h5⟩
    refine ⟨res, h1, (), by omega, _, ⟨by omega, rfl⟩, _, ⟨h3, rfl⟩, _, ⟨?_, rfl⟩, _, h4 ▸ h5, rfl, ?_⟩
    · have : 333333333333333333 * (res.index - m) / 10 ^ 18 ≤ res.index - m := by
        apply Nat.div_le_of_le_mul
        exact Nat.mul_le_mul_right _ (by norm_num)
      omega
    · cases e; simp_all

/-- With a smaller amount given, the found amount is lowered by a third of the difference. -/
example : ((estIndexForInput { sharedPool with swapInfo :=
      [⟨"osmo", "atom", [⟨1, "osmo"⟩]⟩, ⟨"osmo", "juno", [⟨1, "osmo"⟩]⟩] } ⟨"osmo", 100000⟩ (some 10) (some 30000)).map
        fun r => (r.1.index, r.2.map (·.index))) = .ok (31250, some 30834) := by decide +kernel

/-- **C71 (revised sale).** With a maximum the sale is revised a third of the way from the amount found towards the
maximum, which must not be below the amount found. -/
theorem C71_revised_sale (s : Simulator) (desired : Coin) (init : Option Nat) (m : Nat) (res : SearchOut)
    (est : Option SearchOut) :
    estIndexForOutput s desired init (some m) = .ok (res, est) ↔
      searchForOutput s desired init = .ok res ∧ res.index ≤ m ∧
        333333333333333333 * (m - res.index) / 10 ^ 18 < 2 ^ 128 ∧
        res.index + 333333333333333333 * (m - res.index) / 10 ^ 18 < 2 ^ 128 ∧
        ∃ e, est = some e ∧ e.index = res.index + 333333333333333333 * (m - res.index) / 10 ^ 18 ∧
          tokenGivenIndexIn s e.index desired.denom = .ok (e.received, e.routes) := by
  have e1 : ONE = 10 ^ 18 := rfl
  have e2 : U128 = 2 ^ 128 := rfl
  have e3 : THIRD = 333333333333333333 := rfl
  simp only [estIndexForOutput, bind_eq_ok, require_eq_ok, sub_eq_ok, add_eq_ok, mulInt_eq_ok, Except.ok.injEq,
    Prod.mk.injEq, e1, e2, e3]
  constructor
  · rintro ⟨r, h1, _, h2, _, ⟨_, rfl⟩, _, ⟨h3, rfl⟩, _, ⟨h6, rfl⟩, ⟨t, rs⟩, h4, rfl, rfl⟩
    exact ⟨h1, by omega, h3, h6, _, rfl, rfl, h4⟩
  · rintro ⟨h1, h2, h3, h6, e, rfl, h4, h5⟩
    refine ⟨res, h1, (), by omega, _, ⟨by omega, rfl⟩, _, ⟨h3, rfl⟩, _, ⟨h6, rfl⟩, _, h4 ▸ h5, rfl, ?_⟩
    cases e; simp_all

/-- Through the weighted pool several corrections are needed. -/
example : ((searchForOutput sharedPool ⟨"osmo", 200000⟩ (some 10)).map fun r => (r.received, r.index)) =
    .ok (200000, 71308) ∧
    ((estIndexForOutput sharedPool ⟨"osmo", 200000⟩ (some 100) (some 80871)).map fun r => r.2.map (·.index)) =
    .ok (some 74317) := by decide +kernel

end Ibcx.Props
