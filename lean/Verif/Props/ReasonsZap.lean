import Verif.Spec.ReasonsZap
import Verif.Props.ReasonsPool
import Verif.Props.ZapAccept
import Verif.Props.RouteText
import Verif.Core.ErrorLemmas
/-!
# C114: every refusal of the periphery names a true reason
-/

namespace Ibcx.Props
open Ibcx Ibcx.Core Ibcx.Pool Ibcx.Spec Ibcx.Periphery Ibcx.Spec.Zaps

/-! ### Pools along the simulation -/

/-- The pools of a simulation are the pools read, with other balances. -/
private def Tracks (ps : Pools) (m : KV Nat Pool) : Prop :=
  ∀ n, (ps n = none ∧ m.get n = none) ∨ ∃ q q', ps n = some q ∧ m.get n = some q' ∧ SamePool q q'

private theorem samePool_refl (q : Pool) : SamePool q q := by
  cases q with
  | weighted w => exact .weighted rfl rfl rfl
  | queried id s => exact .queried id s

private theorem samePool_trans {q q' q'' : Pool} (h : SamePool q q') (h' : SamePool q' q'') : SamePool q q'' := by
  cases h with
  | weighted a b c =>
    cases h' with
    | weighted a' b' c' => exact .weighted (a'.trans a) (b'.trans b) (c'.trans c)
  | queried id s => exact h'

private theorem apply_shape {as bs : List Asset} {d d' : Denom} {x y : Nat} (h : applyNewAssets as d d' x y = .ok bs) :
    bs.map (fun a => (a.denom, a.weight)) = as.map (fun a => (a.denom, a.weight)) := by
  simp only [applyNewAssets, bind_eq_ok, Except.ok.injEq] at h
  obtain ⟨_, _, _, _, _, _, _, _, rfl⟩ := h
  rw [List.map_map]
  apply List.map_congr_left
  intro a _
  simp only [Function.comp]
  split
  · rfl
  · split <;> rfl

private theorem sold_same {env : Env} {c : Coin} {d : Denom} {q q' : Pool} {out : Nat} (h : Sold env c d q out q') :
    SamePool q q' := by
  cases h with
  | weighted h =>
    simp only [WeightedPool.swapExactIn, bind_eq_ok, Except.ok.injEq, Prod.mk.injEq] at h
    obtain ⟨_, _, as, h, _, rfl⟩ := h
    exact .weighted rfl rfl (apply_shape h)
  | chain h => exact .queried _ _

private theorem bought_same {env : Env} {c : Coin} {d : Denom} {q q' : Pool} {out : Nat} (h : Bought env c d q out q') :
    SamePool q q' := by
  cases h with
  | weighted h =>
    simp only [WeightedPool.swapExactOut, bind_eq_ok, Except.ok.injEq, Prod.mk.injEq] at h
    obtain ⟨_, _, as, h, _, rfl⟩ := h
    exact .weighted rfl rfl (apply_shape h)
  | chain h => exact .queried _ _

private theorem Tracks.put {ps : Pools} {m : KV Nat Pool} (h : Tracks ps m) {n : Nat} {q q' : Pool}
    (hq : m.get n = some q) (hs : SamePool q q') : Tracks ps (m.set n q') := by
  intro k
  rw [kv_get_set]
  by_cases hk : k = n
  · subst hk
    rcases h k with ⟨_, h1⟩ | ⟨a, b, h1, h2, h3⟩
    · rw [h1] at hq; cases hq
    · rw [h2] at hq; cases hq
      exact .inr ⟨a, q', h1, if_pos rfl, samePool_trans h3 hs⟩
  · rw [if_neg hk]; exact h k

private theorem tracks_byId (pools : List Pool) : Tracks (byId pools) (poolsMap pools) := by
  intro n
  rw [poolsMap_get]
  cases h : byId pools n with
  | none => exact .inl ⟨rfl, rfl⟩
  | some q => exact .inr ⟨q, q, rfl, rfl, samePool_refl q⟩

/-- What can go wrong at a hop. -/
inductive HopFails (sell : Bool) (env : Env) (ps : Pools) (n : Nat) : Err → Prop where
  | big : HopFails sell env ps n .overflow
  | none (h : ps n = .none) : HopFails sell env ps n .notFound
  | spread {id : Nat} {e : Err} (h : ps n = some (.queried id (.error e))) : HopFails sell env ps n e
  | sale {id fee : Nat} {c : Coin} {d : Denom} {e : Err} (hs : sell = true) (h : ps n = some (.queried id (.ok fee)))
      (h1 : env.estOut [⟨id, d⟩] c = .error e) : HopFails sell env ps n e
  | purchase {id fee : Nat} {c : Coin} {d : Denom} {e : Err} (hs : sell = false)
      (h : ps n = some (.queried id (.ok fee))) (h1 : env.estIn [⟨id, d⟩] c = .error e) : HopFails sell env ps n e
  | sell {w w' : WeightedPool} {c : Coin} {d : Denom} {e : Err} (hs : sell = true) (h : ps n = some (.weighted w))
      (h1 : SamePool (.weighted w) (.weighted w')) (h2 : SaleRefused w' c d e) : HopFails sell env ps n e
  | buy {w w' : WeightedPool} {c : Coin} {d : Denom} {e : Err} (hs : sell = false) (h : ps n = some (.weighted w))
      (h1 : SamePool (.weighted w) (.weighted w')) (h2 : PurchaseRefused w' c d e) : HopFails sell env ps n e

private theorem hopIn_error {env : Env} {ps : Pools} {m : KV Nat Pool} {c : Coin} {r : SwapRoute} {e : Err}
    (ht : Tracks ps m) (h : hopIn env (m, c) r = .error e) : HopFails true env ps r.poolId e := by
  simp only [hopIn, bind_eq_error] at h
  rcases h with h | ⟨q, hq, h | ⟨f, hf, h | ⟨⟨o, q'⟩, _, h | ⟨_, _, h⟩⟩⟩⟩
  · obtain ⟨rfl, h1⟩ := load_error h
    rcases ht r.poolId with ⟨h2, _⟩ | ⟨_, _, _, h2, _⟩
    · exact .none h2
    · rw [h2] at h1; cases h1
  · have hq := load_ok hq
    cases q with
    | weighted w => cases h
    | queried id s =>
      simp only [Pool.spreadFactor] at h
      subst h
      rcases ht r.poolId with ⟨_, h2⟩ | ⟨a, b, h1, h2, h3⟩
      · rw [h2] at hq; cases hq
      · rw [h2] at hq; cases hq; cases h3
        exact .spread h1
  · have hq := load_ok hq
    rcases ht r.poolId with ⟨_, h2⟩ | ⟨a, b, h1, h2, h3⟩
    · rw [h2] at hq; cases hq
    rw [h2] at hq; cases hq
    cases q with
    | weighted w' =>
      simp only [Pool.spreadFactor, Except.ok.injEq] at hf
      subst hf
      simp only [Pool.swapExactIn, bind_eq_error] at h
      rcases h with h | ⟨_, _, h⟩
      · cases id h3 with
        | weighted a b c => exact .sell rfl h1 h3 (C114_sale_reason h)
      · cases h
    | queried id s =>
      simp only [Pool.spreadFactor] at hf
      subst hf
      simp only [Pool.swapExactIn, Core.simSwapExactIn, bind_eq_error] at h
      rcases h with h | ⟨_, _, h⟩
      · cases h3
        exact .sale rfl h1 h
      · cases h
  · obtain rfl := chk_error h; exact .big
  · cases h

private theorem hopOut_error {env : Env} {ps : Pools} {m : KV Nat Pool} {c : Coin} {r : SwapRoute} {e : Err}
    (ht : Tracks ps m) (h : hopOut env (m, c) r = .error e) : HopFails false env ps r.poolId e := by
  simp only [hopOut, bind_eq_error] at h
  rcases h with h | ⟨q, hq, h | ⟨f, hf, h | ⟨⟨o, q'⟩, _, h | ⟨_, _, h⟩⟩⟩⟩
  · obtain ⟨rfl, h1⟩ := load_error h
    rcases ht r.poolId with ⟨h2, _⟩ | ⟨_, _, _, h2, _⟩
    · exact .none h2
    · rw [h2] at h1; cases h1
  · have hq := load_ok hq
    cases q with
    | weighted w => cases h
    | queried id s =>
      simp only [Pool.spreadFactor] at h
      subst h
      rcases ht r.poolId with ⟨_, h2⟩ | ⟨a, b, h1, h2, h3⟩
      · rw [h2] at hq; cases hq
      · rw [h2] at hq; cases hq; cases h3
        exact .spread h1
  · have hq := load_ok hq
    rcases ht r.poolId with ⟨_, h2⟩ | ⟨a, b, h1, h2, h3⟩
    · rw [h2] at hq; cases hq
    rw [h2] at hq; cases hq
    cases q with
    | weighted w' =>
      simp only [Pool.spreadFactor, Except.ok.injEq] at hf
      subst hf
      simp only [Pool.swapExactOut, bind_eq_error] at h
      rcases h with h | ⟨_, _, h⟩
      · cases id h3 with
        | weighted a b c => exact .buy rfl h1 h3 (C114_purchase_reason h)
      · cases h
    | queried id s =>
      simp only [Pool.spreadFactor] at hf
      subst hf
      simp only [Pool.swapExactOut, Core.simSwapExactOut, bind_eq_error] at h
      rcases h with h | ⟨_, _, h⟩
      · cases h3
        exact .purchase rfl h1 h
      · cases h
  · obtain rfl := chk_error h; exact .big
  · cases h

private theorem hopIn_tracks {env : Env} {ps : Pools} {m m' : KV Nat Pool} {c c' : Coin} {r : SwapRoute}
    (ht : Tracks ps m) (h : hopIn env (m, c) r = .ok (m', c')) : Tracks ps m' := by
  obtain ⟨q, q', out, h1, h2, _, rfl, _⟩ := hopIn_eq_ok.1 h
  exact ht.put h1 (sold_same h2)

private theorem hopOut_tracks {env : Env} {ps : Pools} {m m' : KV Nat Pool} {c c' : Coin} {r : SwapRoute}
    (ht : Tracks ps m) (h : hopOut env (m, c) r = .ok (m', c')) : Tracks ps m' := by
  obtain ⟨q, q', out, h1, h2, _, rfl, _⟩ := hopOut_eq_ok.1 h
  exact ht.put h1 (bought_same h2)

private theorem foldIn_fails {env : Env} {ps : Pools} : ∀ {rs : List SwapRoute} {m : KV Nat Pool} {c : Coin},
    Tracks ps m →
    (∀ e, rs.foldlM (hopIn env) (m, c) = .error e → ∃ r ∈ rs, HopFails true env ps r.poolId e) ∧
      ∀ m' c', rs.foldlM (hopIn env) (m, c) = .ok (m', c') → Tracks ps m'
  | [], m, c, ht => by
    refine ⟨fun e h => (by cases h), fun m' c' h => ?_⟩
    cases h
    exact ht
  | r :: rs, m, c, ht => by
    constructor
    · intro e h
      rw [List.foldlM_cons, bind_eq_error] at h
      rcases h with h | ⟨⟨m1, c1⟩, h1, h⟩
      · exact ⟨r, List.mem_cons_self, hopIn_error ht h⟩
      · obtain ⟨x, hx, hf⟩ := (foldIn_fails (hopIn_tracks ht h1)).1 e h
        exact ⟨x, List.mem_cons_of_mem _ hx, hf⟩
    · intro m' c' h
      rw [List.foldlM_cons, bind_eq_ok] at h
      obtain ⟨⟨m1, c1⟩, h1, h⟩ := h
      exact (foldIn_fails (hopIn_tracks ht h1)).2 m' c' h

private theorem foldOut_fails {env : Env} {ps : Pools} : ∀ {rs : List SwapRoute} {m : KV Nat Pool} {c : Coin},
    Tracks ps m →
    (∀ e, rs.foldlM (hopOut env) (m, c) = .error e → ∃ r ∈ rs, HopFails false env ps r.poolId e) ∧
      ∀ m' c', rs.foldlM (hopOut env) (m, c) = .ok (m', c') → Tracks ps m'
  | [], m, c, ht => by
    refine ⟨fun e h => (by cases h), fun m' c' h => ?_⟩
    cases h
    exact ht
  | r :: rs, m, c, ht => by
    constructor
    · intro e h
      rw [List.foldlM_cons, bind_eq_error] at h
      rcases h with h | ⟨⟨m1, c1⟩, h1, h⟩
      · exact ⟨r, List.mem_cons_self, hopOut_error ht h⟩
      · obtain ⟨x, hx, hf⟩ := (foldOut_fails (hopOut_tracks ht h1)).1 e h
        exact ⟨x, List.mem_cons_of_mem _ hx, hf⟩
    · intro m' c' h
      rw [List.foldlM_cons, bind_eq_ok] at h
      obtain ⟨⟨m1, c1⟩, h1, h⟩ := h
      exact (foldOut_fails (hopOut_tracks ht h1)).2 m' c' h

/-- What can go wrong in the simulation of a basket. -/
inductive SimFails (sell : Bool) (env : Env) (infos : List SwapInfo) (us : Core.Units) (ps : Pools) (d : Denom) :
    Err → Prop where
  | big : SimFails sell env infos us ps d .overflow
  | noSale {x : Denom × Nat} (hs : sell = true) (h : x ∈ us) (h1 : d ≠ x.1)
      (h2 : ∀ i ∈ infos, ¬ (i.src = x.1 ∧ i.dst = d)) : SimFails sell env infos us ps d .notFound
  | noPurchase {x : Denom × Nat} (hs : sell = false) (h : x ∈ us) (h1 : d ≠ x.1)
      (h2 : ∀ i ∈ infos, ¬ (i.src = d ∧ i.dst = x.1)) : SimFails sell env infos us ps d .notFound
  | hop {n : Nat} {e : Err} (h : Uses infos n) (h1 : HopFails sell env ps n e) : SimFails sell env infos us ps d e

private theorem SimFails.mono {sell : Bool} {env : Env} {infos : List SwapInfo} {x : Denom × Nat} {us : Core.Units}
    {ps : Pools} {d : Denom} {e : Err} (h : SimFails sell env infos us ps d e) : SimFails sell env infos (x :: us) ps d e := by
  cases h with
  | big => exact .big
  | noSale hs h h1 h2 => exact .noSale hs (List.mem_cons_of_mem _ h) h1 h2
  | noPurchase hs h h1 h2 => exact .noPurchase hs (List.mem_cons_of_mem _ h) h1 h2
  | hop h h1 => exact .hop h h1

private theorem findRoutes_error {infos : List SwapInfo} {a b : Denom} {e : Err} (h : findRoutes infos a b = .error e) :
    e = .notFound ∧ ∀ i ∈ infos, ¬ (i.src = a ∧ i.dst = b) := by
  unfold findRoutes at h
  split at h
  · cases h
  · rename_i hn
    cases h
    exact ⟨rfl, fun i hi => by simpa using (List.find?_eq_none.1 hn) i hi⟩

private theorem findRoutes_ok {infos : List SwapInfo} {a b : Denom} {rs : List SwapRoute}
    (h : findRoutes infos a b = .ok rs) : ∃ i ∈ infos, i.routes = rs := by
  unfold findRoutes at h
  split at h
  · rename_i i hi
    cases h
    exact ⟨i, List.mem_of_find?_eq_some hi, rfl⟩
  · cases h

private theorem outRoutes_fails {s : Simulator} {index : Nat} {d : Denom} {ps : Pools} :
    ∀ {us : Core.Units} {m : KV Nat Pool} {e : Err}, Tracks ps m → outRoutes s index d us m = .error e →
      SimFails true s.env s.swapInfo us ps d e
  | [], _, _, _, h => by cases h
  | (x, u) :: us, m, e, ht, h => by
    have rest : ∀ {m' : KV Nat Pool} {r}, Tracks ps m' →
        (outRoutes s index d us m' >>= fun rs => .ok (r :: rs)) = .error e → SimFails true s.env s.swapInfo ((x, u) :: us) ps d e := by
      intro m' r ht' h
      rw [bind_eq_error] at h
      rcases h with h | ⟨_, _, h⟩
      · exact (outRoutes_fails ht' h).mono
      · cases h
    unfold outRoutes at h
    rw [bind_eq_error] at h
    rcases h with h | ⟨a, _, h⟩
    · obtain rfl := mulInt_error h; exact .big
    by_cases hd : x = d
    · simp only [hd, if_true, ok_bind] at h
      exact rest ht h
    · simp only [hd, if_false] at h
      rw [bind_eq_error] at h
      rcases h with h | ⟨⟨r, m'⟩, h0, h⟩
      · simp only [estOutGivenIn, bind_eq_error] at h
        rcases h with h | ⟨rs, hrs, h | ⟨_, _, h⟩⟩
        · obtain ⟨rfl, h1⟩ := findRoutes_error h
          exact .noSale rfl List.mem_cons_self (Ne.symm hd) h1
        · obtain ⟨i, hi, rfl⟩ := findRoutes_ok hrs
          obtain ⟨r, hr, hf⟩ := (foldIn_fails ht).1 e h
          exact .hop ⟨i, hi, r, hr, rfl⟩ hf
        · cases h
      · refine rest (m' := m') (r := r) ?_ h
        simp only [estOutGivenIn, bind_eq_ok, Except.ok.injEq, Prod.mk.injEq] at h0
        obtain ⟨rs, _, ⟨m2, c2⟩, h2, _, rfl⟩ := h0
        exact (foldIn_fails ht).2 _ _ h2

private theorem inRoutes_fails {s : Simulator} {index : Nat} {d : Denom} {ps : Pools} :
    ∀ {us : Core.Units} {m : KV Nat Pool} {e : Err}, Tracks ps m → inRoutes s index d us m = .error e →
      SimFails false s.env s.swapInfo us ps d e
  | [], _, _, _, h => by cases h
  | (x, u) :: us, m, e, ht, h => by
    have rest : ∀ {m' : KV Nat Pool} {r}, Tracks ps m' →
        (inRoutes s index d us m' >>= fun rs => .ok (r :: rs)) = .error e → SimFails false s.env s.swapInfo ((x, u) :: us) ps d e := by
      intro m' r ht' h
      rw [bind_eq_error] at h
      rcases h with h | ⟨_, _, h⟩
      · exact (inRoutes_fails ht' h).mono
      · cases h
    unfold inRoutes at h
    rw [bind_eq_error] at h
    rcases h with h | ⟨a, _, h⟩
    · obtain rfl := mulInt_error h; exact .big
    by_cases hd : x = d
    · simp only [hd, if_true, ok_bind] at h
      exact rest ht h
    · simp only [hd, if_false] at h
      rw [bind_eq_error] at h
      rcases h with h | ⟨⟨r, m'⟩, h0, h⟩
      · simp only [estInGivenOut, bind_eq_error] at h
        rcases h with h | ⟨rs, hrs, h | ⟨_, _, h⟩⟩
        · obtain ⟨rfl, h1⟩ := findRoutes_error h
          exact .noPurchase rfl List.mem_cons_self (Ne.symm hd) h1
        · obtain ⟨i, hi, rfl⟩ := findRoutes_ok hrs
          obtain ⟨r, hr, hf⟩ := (foldOut_fails ht).1 e h
          exact .hop ⟨i, hi, r, List.mem_reverse.1 hr, rfl⟩ hf
        · cases h
      · refine rest (m' := m') (r := r) ?_ h
        simp only [estInGivenOut, bind_eq_ok, Except.ok.injEq, Prod.mk.injEq] at h0
        obtain ⟨rs, _, ⟨m2, c2⟩, h2, _, rfl⟩ := h0
        exact (foldOut_fails ht).2 _ _ h2

/-- What can go wrong when a simulator prices a basket. -/
abbrev Fails (sell : Bool) (s : Simulator) (d : Denom) (e : Err) : Prop :=
  SimFails sell s.env s.swapInfo s.units (byId s.pools) d e

theorem tokenIn_fails {s : Simulator} {index : Nat} {d : Denom} {e : Err}
    (h : tokenGivenIndexIn s index d = .error e) : Fails true s d e := by
  simp only [tokenGivenIndexIn, bind_eq_error] at h
  rcases h with h | ⟨_, _, h | ⟨_, _, h⟩⟩
  · exact outRoutes_fails (tracks_byId _) h
  · obtain rfl : e = .overflow := foldlM_error (P := (· = .overflow)) (fun _ _ _ _ h => add_error h) h
    exact .big
  · cases h

theorem tokenOut_fails {s : Simulator} {index : Nat} {d : Denom} {e : Err}
    (h : tokenGivenIndexOut s index d = .error e) : Fails false s d e := by
  simp only [tokenGivenIndexOut, bind_eq_error] at h
  rcases h with h | ⟨_, _, h | ⟨_, _, h⟩⟩
  · exact inRoutes_fails (tracks_byId _) h
  · obtain rfl : e = .overflow := foldlM_error (P := (· = .overflow)) (fun _ _ _ _ h => add_error h) h
    exact .big
  · cases h

private theorem tokenIn_sum {s : Simulator} {index t : Nat} {d : Denom} {rs : List SimOut}
    (h : tokenGivenIndexIn s index d = .ok (t, rs)) : sumOut rs = .ok t := by
  simp only [tokenGivenIndexIn, bind_eq_ok, Except.ok.injEq, Prod.mk.injEq] at h
  obtain ⟨_, _, _, h, rfl, rfl⟩ := h
  exact h

private theorem tokenOut_sum {s : Simulator} {index t : Nat} {d : Denom} {rs : List SimIn}
    (h : tokenGivenIndexOut s index d = .ok (t, rs)) : sumIn rs = .ok t := by
  simp only [tokenGivenIndexOut, bind_eq_ok, Except.ok.injEq, Prod.mk.injEq] at h
  obtain ⟨_, _, _, h, rfl, rfl⟩ := h
  exact h

/-! ### The search -/

theorem searchIn_fails {s : Simulator} {desired : Coin} : ∀ {n : Nat} {acc : SearchIn} {e : Err},
    Costs s desired.denom acc.index acc.spent → searchInLoop s desired n acc = .error e →
      Fails false s desired.denom e ∨ (e = .divideByZero ∧ ∃ i, Costs s desired.denom i 0) ∨
        (e = .maxLoopExceeded ∧ Missed (Costs s desired.denom) desired.amount n ⟨acc.index, acc.spent⟩)
  | 0, acc, e, _, h => by
    cases h
    exact .inr (.inr ⟨rfl, .zero _⟩)
  | n + 1, acc, e, hc, h => by
    unfold searchInLoop at h
    rw [bind_eq_error] at h
    rcases h with h | ⟨acc', h1, h⟩
    · simp only [searchInF, bind_eq_error] at h
      rcases h with h | ⟨_, _, h | ⟨_, _, h | ⟨_, _, h⟩⟩⟩
      · rcases ratio_error h with rfl | ⟨rfl, hz⟩
        · exact .inl .big
        · rw [hz] at hc; exact .inr (.inl ⟨rfl, _, hc⟩)
      · obtain rfl := mulInt_error h; exact .inl .big
      · exact .inl (tokenOut_fails h)
      · cases h
    · have hcor : Corrected (Costs s desired.denom) desired.amount ⟨acc.index, acc.spent⟩ ⟨acc'.index, acc'.spent⟩ := by
        obtain ⟨a, b, c, d, e⟩ := searchInF_ok.1 h1
        exact ⟨a, b, c, d, _, e⟩
      have hc' : Costs s desired.denom acc'.index acc'.spent := ⟨_, (searchInF_ok.1 h1).2.2.2.2⟩
      rw [bind_eq_error] at h
      rcases h with h | ⟨err, h2, h⟩
      · rcases ratio_error h with rfl | ⟨rfl, hz⟩
        · exact .inl .big
        · rw [hz] at hc'; exact .inr (.inl ⟨rfl, _, hc'⟩)
      have go : ¬ Close desired.amount ⟨acc'.index, acc'.spent⟩ → searchInLoop s desired n acc' = .error e → _ :=
        fun hn h => (searchIn_fails hc' h).imp id (Or.imp id (And.imp_right (Missed.more hcor hn)))
      split at h
      · rename_i he
        rw [bind_eq_error] at h
        rcases h with h | ⟨gap, hg, h⟩
        · obtain rfl := sub_error h; exact .inl .big
        obtain ⟨_, rfl⟩ := sub_eq_ok.1 hg
        split at h
        · cases h
        · rename_i hg
          refine go ?_ h
          rintro ⟨_, _, h3⟩
          unfold MAX_ERROR at hg
          have : desired.amount < acc'.spent + 5000 := h3
          omega
      · rename_i he
        rw [one_le_ratio h2] at he
        exact go (fun h3 => he h3.2.1) h

theorem searchOut_fails {s : Simulator} {desired : Coin} : ∀ {n : Nat} {acc : SearchOut} {e : Err},
    Brings s desired.denom acc.index acc.received → searchOutLoop s desired n acc = .error e →
      Fails true s desired.denom e ∨ (e = .divideByZero ∧ ∃ i, Brings s desired.denom i 0) ∨
        (e = .maxLoopExceeded ∧ Missed (Brings s desired.denom) desired.amount n ⟨acc.index, acc.received⟩)
  | 0, acc, e, _, h => by
    cases h
    exact .inr (.inr ⟨rfl, .zero _⟩)
  | n + 1, acc, e, hc, h => by
    unfold searchOutLoop at h
    rw [bind_eq_error] at h
    rcases h with h | ⟨acc', h1, h⟩
    · simp only [searchOutF, bind_eq_error] at h
      rcases h with h | ⟨_, _, h | ⟨_, _, h | ⟨_, _, h⟩⟩⟩
      · rcases ratio_error h with rfl | ⟨rfl, hz⟩
        · exact .inl .big
        · rw [hz] at hc; exact .inr (.inl ⟨rfl, _, hc⟩)
      · obtain rfl := mulInt_error h; exact .inl .big
      · exact .inl (tokenIn_fails h)
      · cases h
    · have hcor : Corrected (Brings s desired.denom) desired.amount ⟨acc.index, acc.received⟩
          ⟨acc'.index, acc'.received⟩ := by
        obtain ⟨a, b, c, d, e⟩ := searchOutF_ok.1 h1
        exact ⟨a, b, c, d, _, e⟩
      have hc' : Brings s desired.denom acc'.index acc'.received := ⟨_, (searchOutF_ok.1 h1).2.2.2.2⟩
      rw [bind_eq_error] at h
      rcases h with h | ⟨err, h2, h⟩
      · rcases ratio_error h with rfl | ⟨rfl, hz⟩
        · exact .inl .big
        · rw [hz] at hc'; exact .inr (.inl ⟨rfl, _, hc'⟩)
      have go : ¬ Close desired.amount ⟨acc'.index, acc'.received⟩ → searchOutLoop s desired n acc' = .error e → _ :=
        fun hn h => (searchOut_fails hc' h).imp id (Or.imp id (And.imp_right (Missed.more hcor hn)))
      split at h
      · rename_i he
        rw [bind_eq_error] at h
        rcases h with h | ⟨gap, hg, h⟩
        · obtain rfl := sub_error h; exact .inl .big
        obtain ⟨_, rfl⟩ := sub_eq_ok.1 hg
        split at h
        · cases h
        · rename_i hg
          refine go ?_ h
          rintro ⟨_, _, h3⟩
          unfold MAX_ERROR at hg
          have : desired.amount < acc'.received + 5000 := h3
          omega
      · rename_i he
        rw [one_le_ratio h2] at he
        exact go (fun h3 => he h3.2.1) h

private theorem inMsgs_error {rs : List SimIn} {a : Addr} {limit t : Nat} {e : Err} (hs : sumIn rs = .ok t) (ht : t ≤ limit)
    (h : inMsgs rs a limit = .error e) : e = .overflow ∨ (e = .divideByZero ∧ t = 0) := by
  simp only [inMsgs, bind_eq_error, hs] at h
  rcases h with h | ⟨_, h0, h⟩
  · cases h
  cases h0
  rcases h with h | ⟨_, _, h | ⟨amp, _, h | ⟨_, _, h⟩⟩⟩
  · exact absurd (require_eq_error.1 h).1 (by omega)
  · exact ratio_error h
  · refine .inl (mapM_error (P := (· = .overflow)) (fun r _ e h => ?_) h)
    unfold inMsg at h
    split at h
    · cases h
    · rw [bind_eq_error] at h
      rcases h with h | ⟨_, _, h⟩
      · exact mulInt_error h
      · cases h
  · cases h

private theorem outMsgs_error {rs : List SimOut} {a : Addr} {limit t : Nat} {e : Err} (hs : sumOut rs = .ok t)
    (h : outMsgs rs a limit = .error e) :
    e = .overflow ∨ (e = .divideByZero ∧ t = 0) ∨ (e = .tradeAmountExceeded ∧ t < limit) := by
  simp only [outMsgs, bind_eq_error, hs] at h
  rcases h with h | ⟨_, h0, h⟩
  · cases h
  cases h0
  rcases h with h | ⟨_, _, h | ⟨amp, _, h | ⟨_, _, h⟩⟩⟩
  · obtain ⟨h1, rfl⟩ := require_eq_error.1 h
    exact .inr (.inr ⟨rfl, by omega⟩)
  · exact (ratio_error h).imp id .inl
  · refine .inl (mapM_error (P := (· = .overflow)) (fun r _ e h => ?_) h)
    unfold outMsg at h
    split at h
    · cases h
    · rw [bind_eq_error] at h
      rcases h with h | ⟨_, _, h⟩
      · exact mulInt_error h
      · cases h
  · cases h

theorem basketCoins_error {us : Core.Units} {n : Nat} {e : Err} (h : basketCoins us n = .error e) :
    e = .overflow := by
  simp only [basketCoins, bind_eq_error] at h
  rcases h with h | ⟨_, _, h⟩
  · refine mapM_error (P := (· = .overflow)) (fun a _ e h => ?_) h
    simp only [bind_eq_error] at h
    rcases h with h | ⟨_, _, h⟩
    · exact mulInt_error h
    · cases h
  · cases h

theorem deductFee_error {f : Option Nat} {e : Err} (h : deductFee f = .error e) : e = .overflow := by
  cases f with
  | none => cases h
  | some v => exact sub_error h

/-! ### What is read -/

theorem getFee_error {c : Core.State} {env : Env} {e : Err} (h : getFee c env none = .error e) :
    e = .overflow := by
  refine collect_error (s := c) (now := env.now) ?_
  unfold getFee at h
  unfold collectStreamingFee
  split at h
  · cases h
  · rename_i sf hs
    simp only [bind_eq_error] at h
    rcases h with h | ⟨_, _, h⟩
    · rw [hs]; simp only [bind_eq_error]; exact .inl h
    · cases h

theorem getPortfolio_error {c : Core.State} {env : Env} {e : Err} (h : getPortfolio c env none = .error e) :
    e = .overflow := by
  simp only [getPortfolio, bind_eq_error] at h
  rcases h with h | ⟨_, _, h | ⟨_, _, h⟩⟩
  · refine collect_error (s := c) (now := env.now) ?_
    unfold unitsAt at h
    unfold collectStreamingFee
    split at h
    · cases h
    · rename_i sf hs
      simp only [bind_eq_error] at h
      rcases h with h | ⟨_, _, h⟩
      · rw [hs]; simp only [bind_eq_error]; exact .inl h
      · cases h
  · exact calcRequire_error h
  · cases h

private theorem parseRoute_error {t : String} {e : Err} (h : parseRoute t = .error e) : e = .panic ∧ BadHop t := by
  constructor
  · unfold parseRoute at h
    simp only at h
    split at h
    · cases h
    · cases h; rfl
  · rintro ⟨num, id, h1, h2, h3⟩
    have last : ∀ l : List Char, ∃ part, LastPart l part := by
      intro l
      induction l with
      | nil => exact ⟨[], by simp, .inl rfl⟩
      | cons a l ih =>
        obtain ⟨part, hc, h⟩ := ih
        rcases h with rfl | ⟨rest, rfl⟩
        · by_cases ha : a = ','
          · exact ⟨l, hc, .inr ⟨[], by rw [ha]; rfl⟩⟩
          · exact ⟨a :: l, by simp [Ne.symm ha, hc], .inl rfl⟩
        · exact ⟨part, hc, .inr ⟨a :: rest, rfl⟩⟩
    obtain ⟨part, hp⟩ := last t.toList
    have := (C72_hop_text t id (String.ofList part)).2 ⟨h3, ⟨num, h1, h2⟩, by rw [String.toList_ofList]; exact hp⟩
    rw [this] at h
    cases h

theorem parseInfos_error {si : List Compact} {e : Err} (h : parseInfos si = .error e) :
    e = .panic ∧ ∃ i ∈ si, ∃ t ∈ i.routes, BadHop t := by
  refine mapM_error (P := fun e => e = .panic ∧ ∃ i ∈ si, ∃ t ∈ i.routes, BadHop t) (fun i hi e h => ?_) h
  simp only [parseInfo, bind_eq_error] at h
  rcases h with h | ⟨_, _, h⟩
  · refine mapM_error (P := fun e => e = .panic ∧ ∃ i ∈ si, ∃ t ∈ i.routes, BadHop t) (fun t ht e h => ?_) h
    obtain ⟨h1, h2⟩ := parseRoute_error h
    exact ⟨h1, i, hi, t, ht, h2⟩
  · cases h

theorem makeSim_error {p : PEnv} {infos : List SwapInfo} {us : Core.Units} {e : Err}
    (h : makeSim p infos us = .error e) : ∃ n, Uses infos n ∧ p.pool n = .error e := by
  simp only [makeSim, queryPools, bind_eq_error] at h
  rcases h with (h | ⟨_, _, h⟩) | ⟨_, _, h⟩
  · refine mapM_error (P := fun e => ∃ n, Uses infos n ∧ p.pool n = .error e) (fun n hn e h => ?_) h
    exact ⟨n, ((C56_pool_ids infos).2 n).1 hn, h⟩
  · cases h
  · cases h

theorem pool_read {p : PEnv} {infos : List SwapInfo} {pools : List Pool} (hp : PoolsRead p.pool infos pools)
    {n : Nat} {q : Pool} (h : byId pools n = some q) : ∃ k, Uses infos k ∧ p.pool k = .ok (some q) := by
  obtain ⟨ids, answers, _, h1, h2, rfl⟩ := hp
  have hm := List.mem_of_find?_eq_some h
  rw [List.mem_reverse, List.mem_filterMap] at hm
  obtain ⟨o, ho, hoq⟩ := hm
  obtain rfl : o = some q := hoq
  have key : ∀ {ids : List Nat} {answers : List (Option Pool)},
      List.Forall₂ (fun n answer => p.pool n = .ok answer) ids answers → some q ∈ answers → ∃ k ∈ ids, p.pool k = .ok (some q) := by
    intro ids answers h
    induction h with
    | nil => intro h; cases h
    | cons hxy _ ih =>
      intro h
      rcases List.mem_cons.1 h with h | h
      · subst h; exact ⟨_, List.mem_cons_self, hxy⟩
      · obtain ⟨k, hk, e⟩ := ih h
        exact ⟨k, List.mem_cons_of_mem _ hk, e⟩
  obtain ⟨k, hk, e⟩ := key h2 ho
  exact ⟨k, (h1 k).1 hk, e⟩

private theorem refuses_reason {p : PEnv} {info : Info} {msg : PExecMsg} {e : Err} (hz : IsZap msg)
    (h : PoolRefuses p msg e) : Reason p info msg e := by
  have no : ∀ {e : Err}, (∀ w c d, ¬ SaleRefused w c d e) → (∀ w c d, ¬ PurchaseRefused w c d e) →
      ¬ PoolRefuses p msg e := by
    rintro e h1 h2 ⟨_, _, _, w', c, d, _, _, _, _, ⟨_, h⟩ | ⟨_, h⟩⟩
    · exact h1 _ _ _ h
    · exact h2 _ _ _ h
  cases e
  case generic => exact h
  case divideByZero => exact .inl h
  case negativeBase => exact h
  case baseTooLarge => exact h
  case mathApprox => exact h
  case overflow => exact hz
  all_goals exact absurd h (no (fun _ _ _ h => h) (fun _ _ _ h => h))

private theorem fails_reason {p : PEnv} {info : Info} {msg : PExecMsg} {infos : List SwapInfo} {c : Core.State}
    {us : Core.Units} {pools : List Pool} {d : Denom} {sell : Bool} {e : Err} (hin : parseInfos (textsOf msg) = .ok infos)
    (hp : PoolsRead p.pool infos pools) (hr : Reads p (addressOf msg) infos c us (byId pools)) (hz : IsZap msg)
    (hs : sell = true → getDenom msg = some d) (hb : sell = false → payDenom msg = some d)
    (h : SimFails sell p.env infos us (byId pools) d e) : ChainSays p msg e ∨ Reason p info msg e := by
  cases h with
  | big => exact .inr hz
  | noSale h0 h h1 h2 => exact .inr ⟨infos, c, us, _, hin, hr, .inr ⟨_, h, .inr ⟨d, hs h0, h1, h2⟩⟩⟩
  | noPurchase h0 h h1 h2 => exact .inr ⟨infos, c, us, _, hin, hr, .inr ⟨_, h, .inl ⟨d, hb h0, h1, h2⟩⟩⟩
  | hop hu h =>
    cases h with
    | big => exact .inr hz
    | none h => exact .inr ⟨infos, c, us, _, hin, hr, .inl ⟨_, hu, h⟩⟩
    | spread h =>
      obtain ⟨k, hk, h⟩ := pool_read hp h
      exact .inl (.spread hin hk h)
    | sale h0 h h1 =>
      obtain ⟨k, hk, h⟩ := pool_read hp h
      exact .inl (.sale hin hk h (by rw [hs h0]; simp) h1)
    | purchase h0 h h1 =>
      obtain ⟨k, hk, h⟩ := pool_read hp h
      exact .inl (.purchase hin hk h (by rw [hb h0]; simp) h1)
    | sell h0 h h1 h2 =>
      obtain ⟨k, hk, h⟩ := pool_read hp h
      exact .inr (refuses_reason hz ⟨infos, k, _, _, _, _, hin, hk, h, h1, .inl ⟨by rw [hs h0]; simp, h2⟩⟩)
    | buy h0 h h1 h2 =>
      obtain ⟨k, hk, h⟩ := pool_read hp h
      exact .inr (refuses_reason hz ⟨infos, k, _, _, _, _, hin, hk, h, h1, .inr ⟨by rw [hb h0]; simp, h2⟩⟩)

/-- What every zap reads before it simulates. -/
private theorem start_error {p : PEnv} {info : Info} {msg : PExecMsg} {infos : List SwapInfo} {e : Err}
    {den : ConfigResp → Denom} {k : Fee → ConfigResp → PortfolioResp → Nat → Simulator → Res (List PMsg)}
    (hz : IsZap msg) (hin : parseInfos (textsOf msg) = .ok infos)
    (hden : ∀ (c : Core.State) (r : ConfigResp), r.indexDenom = c.config.indexDenom → den r = attachedDenom c msg)
    (hk : ∀ (c c1 : Core.State) (fee : Fee) (cfg : ConfigResp) (pools : List Pool) (paid : Nat), Reads p (addressOf msg) infos c c1.indexUnits (byId pools) →
      PoolsRead p.pool infos pools → fee.mintFee = c.fee.mintFee → fee.burnFee = c.fee.burnFee →
      cfg.indexDenom = c.config.indexDenom → info.funds = [⟨attachedDenom c msg, paid⟩] →
      k fee cfg ⟨c.totalSupply, basket c1.indexUnits c.totalSupply, c1.indexUnits⟩ paid
        { env := p.env, pools := pools, swapInfo := infos, units := c1.indexUnits } = .error e →
      ChainSays p msg e ∨ Reason p info msg e)
    (h : (findCore p (addressOf msg) >>= fun core => getFee core p.env none >>= fun fee =>
      getConfig core p.env none >>= fun cfg => getPortfolio core p.env none >>= fun pf =>
      mustPay info (den cfg) >>= fun paid => makeSim p infos pf.units >>= fun sim => k fee cfg pf paid sim) = .error e) :
    ChainSays p msg e ∨ Reason p info msg e := by
  have big : e = .overflow → Reason p info msg e := by rintro rfl; exact hz
  rw [bind_eq_error] at h
  rcases h with h | ⟨c, hc, h⟩
  · unfold findCore at h
    rw [bind_eq_error] at h
    rcases h with h | ⟨a, ha, h⟩
    · obtain ⟨rfl, h1⟩ := validate_error h
      exact .inr h1
    · unfold validate at ha
      split at ha
      · cases ha
        split at h
        · cases h
        · rename_i hn
          cases h
          exact .inr ⟨hz, hn⟩
      · cases ha
  obtain ⟨hv, hc⟩ := findCore_eq_ok.1 hc
  rw [bind_eq_error] at h
  rcases h with h | ⟨fee, hfee, h⟩
  · exact .inr (big (getFee_error h))
  rw [bind_eq_error] at h
  rcases h with h | ⟨cfg, hcfg, h⟩
  · simp only [getConfig, bind_eq_error] at h
    rcases h with h | ⟨_, _, h⟩
    · exact .inr (big (require_eq_error.1 h).2)
    · cases h
  obtain ⟨_, rfl⟩ := getConfig_iff.1 hcfg
  rw [bind_eq_error] at h
  rcases h with h | ⟨pf, hpf, h⟩
  · exact .inr (big (getPortfolio_error h))
  obtain ⟨c1, hc1, hw, rfl⟩ := getPortfolio_iff.1 hpf
  rw [bind_eq_error] at h
  rcases h with h | ⟨paid, hpaid, h⟩
  · obtain ⟨rfl, h1⟩ := mustPay_error h
    rw [hden c _ rfl] at h1
    exact .inr ⟨hz, c, hc, h1⟩
  obtain ⟨hfu, _⟩ := mustPay_eq_ok.1 hpaid
  rw [hden c _ rfl] at hfu
  rw [bind_eq_error] at h
  rcases h with h | ⟨sim, hsim, h⟩
  · obtain ⟨n, hn, h1⟩ := makeSim_error h
    exact .inl (.pool hin hn h1)
  obtain ⟨pools, hpools, rfl⟩ := makeSim_iff.1 hsim
  exact hk c c1 fee _ pools paid ⟨hv, hc, ⟨c1, hc1, rfl⟩, hw, pools, hpools, rfl⟩ hpools (getFee_frame hfee).1
    (getFee_frame hfee).2.1 rfl hfu h

private theorem mintIn_reason {p : PEnv} {info : Info} {a : Addr} {d : Denom} {min : Nat} {si : List Compact} {e : Err}
    {infos : List SwapInfo} (hin : parseInfos si = .ok infos) (h : mintExactIn p info a d min infos = .error e) :
    ChainSays p (.mintExactIn a d min si) e ∨ Reason p info (.mintExactIn a d min si) e := by
  refine start_error (msg := .mintExactIn a d min si) (den := fun _ => d) trivial hin (fun _ _ _ => rfl) ?_ h
  clear h
  intro c c1 fee cfg pools paid hr hp _ _ _ hfu h
  have big : e = .overflow → Reason p info (.mintExactIn a d min si) e := by rintro rfl; exact trivial
  have worth : ∀ {i : Nat}, CostsInAll p.env infos (byId pools) c1.indexUnits d i 0 → e = .divideByZero →
      Reason p info (.mintExactIn a d min si) e := by
    rintro i hw rfl; exact .inr ⟨infos, c, _, _, i, hin, hr, .inl ⟨d, rfl, hw⟩⟩
  have fails : SimFails false p.env infos c1.indexUnits (byId pools) d e →
      ChainSays p (.mintExactIn a d min si) e ∨ Reason p info (.mintExactIn a d min si) e :=
    fails_reason hin hp hr trivial (fun h => by cases h) (fun _ => rfl)
  rw [bind_eq_error] at h
  rcases h with h | ⟨⟨res, est⟩, hest, h⟩
  · simp only [estIndexForInput, bind_eq_error] at h
    rcases h with h | ⟨res, hres, h⟩
    · simp only [searchForInput, bind_eq_error] at h
      rcases h with h | ⟨⟨v0, rs⟩, hv0, h⟩
      · exact fails (tokenOut_fails h)
      · have hc0 : Costs { env := p.env, pools := pools, swapInfo := infos, units := c1.indexUnits } d min v0 := ⟨rs, hv0⟩
        rcases searchIn_fails (acc := ⟨v0, min, rs⟩) hc0 h with h1 | ⟨rfl, i, h1⟩ | ⟨rfl, h1⟩
        · exact fails h1
        · rw [Costs_eq] at h1
          exact .inr (worth h1 rfl)
        · rw [Costs_eq] at h1 hc0
          exact .inr ⟨infos, c, _, _, paid, v0, hin, hr, hfu, .inl ⟨a, d, min, si, rfl, hc0, h1⟩⟩
    · rcases h with h | ⟨_, _, h | ⟨_, _, h | ⟨_, _, h | ⟨_, _, h | ⟨_, _, h⟩⟩⟩⟩⟩
      · obtain ⟨h1, rfl⟩ := require_eq_error.1 h
        obtain ⟨v0, h2, h3⟩ := (C71_search_for_input _ _ _ _ _).1 ⟨res, hres, rfl, rfl⟩
        rw [Costs_eq] at h2 h3
        exact .inr ⟨infos, c, _, _, paid, hin, hr, hfu, .inl ⟨a, d, min, si, v0, _, rfl, h2, h3, by
          show res.index < min; omega⟩⟩
      · exact .inr (big (sub_error h))
      · exact .inr (big (mulInt_error h))
      · exact .inr (big (sub_error h))
      · exact fails (tokenOut_fails h)
      · cases h
  · rw [C71_revised_purchase] at hest
    obtain ⟨_, _, _, est, rfl, _, htok⟩ := hest
    simp only [bind_eq_error] at h
    rcases h with h | ⟨budget, hb, h | ⟨_, _, h | ⟨_, _, h | ⟨_, _, h | ⟨_, _, h⟩⟩⟩⟩⟩
    · exact .inr (big (add_error h))
    · obtain ⟨_, rfl⟩ := add_eq_ok.1 hb
      rcases inMsgs_error (tokenOut_sum htok) (Nat.le_add_right _ _) h with h1 | ⟨h1, hz⟩
      · exact .inr (big h1)
      · have hc : Costs { env := p.env, pools := pools, swapInfo := infos, units := c1.indexUnits } d est.index est.spent :=
          ⟨_, htok⟩
        rw [Costs_eq, hz] at hc
        exact .inr (worth hc h1)
    · exact .inr (big (basketCoins_error h))
    · exact .inr (big (deductFee_error h))
    · exact .inr (big (mulInt_error h))
    · cases h

private theorem mintOut_reason {p : PEnv} {info : Info} {a : Addr} {d : Denom} {index : Nat} {si : List Compact} {e : Err}
    {infos : List SwapInfo} (hin : parseInfos si = .ok infos) (h : mintExactOut p info a index d infos = .error e) :
    ChainSays p (.mintExactOut a index d si) e ∨ Reason p info (.mintExactOut a index d si) e := by
  refine start_error (msg := .mintExactOut a index d si) (den := fun _ => d) trivial hin (fun _ _ _ => rfl) ?_ h
  clear h
  intro c c1 fee cfg pools paid hr hp _ _ _ hfu h
  have big : e = .overflow → Reason p info (.mintExactOut a index d si) e := by rintro rfl; exact trivial
  rw [bind_eq_error] at h
  rcases h with h | ⟨⟨t, rs⟩, htok, h⟩
  · exact fails_reason hin hp hr trivial (fun h => by cases h) (fun _ => rfl) (tokenOut_fails h)
  simp only [bind_eq_error] at h
  rcases h with h | ⟨_, hle, h | ⟨_, _, h | ⟨_, _, h | ⟨_, _, h | ⟨_, _, h⟩⟩⟩⟩⟩
  · exact .inr (big (sub_error h))
  · obtain ⟨hle, _⟩ := sub_eq_ok.1 hle
    rcases inMsgs_error (tokenOut_sum htok) hle h with h1 | ⟨rfl, rfl⟩
    · exact .inr (big h1)
    · have hc : Costs { env := p.env, pools := pools, swapInfo := infos, units := c1.indexUnits } d index 0 := ⟨_, htok⟩
      rw [Costs_eq] at hc
      exact .inr (.inr ⟨infos, c, _, _, index, hin, hr, .inl ⟨d, rfl, hc⟩⟩)
  · exact .inr (big (basketCoins_error h))
  · exact .inr (big (deductFee_error h))
  · exact .inr (big (mulInt_error h))
  · cases h

private theorem burnIn_reason {p : PEnv} {info : Info} {a : Addr} {d : Denom} {min : Nat} {si : List Compact} {e : Err}
    {infos : List SwapInfo} (hrc : ∀ c, p.core a = some c → Reachable c) (hin : parseInfos si = .ok infos)
    (h : burnExactIn p info a d min infos = .error e) :
    ChainSays p (.burnExactIn a d min si) e ∨ Reason p info (.burnExactIn a d min si) e := by
  refine start_error (msg := .burnExactIn a d min si) (den := fun r => r.indexDenom) trivial hin (fun _ _ h => h) ?_ h
  clear h
  intro c c1 fee cfg pools paid hr hp _ hfee _ hfu h
  have big : e = .overflow → Reason p info (.burnExactIn a d min si) e := by rintro rfl; exact trivial
  rw [bind_eq_error] at h
  rcases h with h | ⟨rate, hrate, h⟩
  · exact .inr (big (deductFee_error h))
  rw [hfee, deduct_ok (hrc c hr.core).inv.burnRate] at hrate
  subst hrate
  rw [bind_eq_error] at h
  rcases h with h | ⟨burnt, hburnt, h⟩
  · exact .inr (big (mulInt_error h))
  obtain ⟨_, rfl⟩ := mulInt_eq_ok.1 hburnt
  rw [bind_eq_error] at h
  rcases h with h | ⟨⟨t, rs⟩, htok, h⟩
  · exact fails_reason hin hp hr trivial (fun _ => rfl) (fun h => by cases h) (tokenIn_fails h)
  rw [part18] at htok
  have hb : Brings { env := p.env, pools := pools, swapInfo := infos, units := c1.indexUnits } d
    (lessFee c.fee.burnFee paid) t := ⟨_, htok⟩
  rw [Brings_eq] at hb
  rw [bind_eq_error] at h
  rcases h with h | ⟨_, _, h⟩
  · rcases outMsgs_error (tokenIn_sum htok) h with h1 | ⟨rfl, rfl⟩ | ⟨rfl, hlt⟩
    · exact .inr (big h1)
    · exact .inr (.inr ⟨infos, c, _, _, _, hin, hr, .inr ⟨d, rfl, hb⟩⟩)
    · exact .inr ⟨infos, c, _, _, paid, hin, hr, hfu, .inr (.inl ⟨a, d, min, si, t, rfl, hb, hlt⟩)⟩
  · cases h

private theorem burnOut_reason {p : PEnv} {info : Info} {a : Addr} {out : Coin} {si : List Compact} {e : Err}
    {infos : List SwapInfo} (hrc : ∀ c, p.core a = some c → Reachable c) (hin : parseInfos si = .ok infos)
    (h : burnExactOut p info a out infos = .error e) :
    ChainSays p (.burnExactOut a out si) e ∨ Reason p info (.burnExactOut a out si) e := by
  refine start_error (msg := .burnExactOut a out si) (den := fun r => r.indexDenom) trivial hin (fun _ _ h => h) ?_ h
  clear h
  intro c c1 fee cfg pools paid hr hp _ hfee _ hfu h
  have big : e = .overflow → Reason p info (.burnExactOut a out si) e := by rintro rfl; exact trivial
  have worth : ∀ {i : Nat}, BringsInAll p.env infos (byId pools) c1.indexUnits out.denom i 0 → e = .divideByZero →
      Reason p info (.burnExactOut a out si) e := by
    rintro i hw rfl; exact .inr ⟨infos, c, _, _, i, hin, hr, .inr ⟨out.denom, rfl, hw⟩⟩
  have fails : SimFails true p.env infos c1.indexUnits (byId pools) out.denom e →
      ChainSays p (.burnExactOut a out si) e ∨ Reason p info (.burnExactOut a out si) e :=
    fails_reason hin hp hr trivial (fun _ => rfl) (fun h => by cases h)
  rw [bind_eq_error] at h
  rcases h with h | ⟨⟨res, est⟩, hest, h⟩
  · simp only [estIndexForOutput, bind_eq_error] at h
    rcases h with h | ⟨res, hres, h⟩
    · simp only [searchForOutput, bind_eq_error] at h
      rcases h with h | ⟨⟨v0, rs⟩, hv0, h⟩
      · exact fails (tokenIn_fails h)
      · have hc0 : Brings { env := p.env, pools := pools, swapInfo := infos, units := c1.indexUnits } out.denom paid v0 :=
          ⟨rs, hv0⟩
        rcases searchOut_fails (acc := ⟨paid, v0, rs⟩) hc0 h with h1 | ⟨rfl, i, h1⟩ | ⟨rfl, h1⟩
        · exact fails h1
        · rw [Brings_eq] at h1
          exact .inr (worth h1 rfl)
        · rw [Brings_eq] at h1 hc0
          exact .inr ⟨infos, c, _, _, paid, v0, hin, hr, hfu, .inr ⟨a, out, si, rfl, hc0, h1⟩⟩
    · rcases h with h | ⟨_, _, h | ⟨_, _, h | ⟨_, _, h | ⟨_, _, h | ⟨_, _, h⟩⟩⟩⟩⟩
      · obtain ⟨h1, rfl⟩ := require_eq_error.1 h
        obtain ⟨v0, h2, h3⟩ := (C71_search_for_output _ _ _ _ _).1 ⟨res, hres, rfl, rfl⟩
        rw [Brings_eq] at h2 h3
        exact .inr ⟨infos, c, _, _, paid, hin, hr, hfu, .inr (.inr ⟨a, out, si, v0, _, rfl, h2, h3, .inl (by
          show paid < res.index; omega)⟩)⟩
      · exact .inr (big (sub_error h))
      · exact .inr (big (mulInt_error h))
      · exact .inr (big (add_error h))
      · exact fails (tokenIn_fails h)
      · cases h
  · rw [C71_revised_sale] at hest
    obtain ⟨hres, _⟩ := hest
    obtain ⟨v0, h2, h3⟩ := (C71_search_for_output _ _ _ _ _).1 ⟨res, hres, rfl, rfl⟩
    rw [Brings_eq] at h2 h3
    have hrate := (hrc c hr.core).inv.burnRate
    rw [bind_eq_error] at h
    rcases h with h | ⟨rate, hx, h⟩
    · rw [hfee] at h
      have := (expand_ok hrate).2 rfl
      rw [this] at h
      cases h
    rw [hfee, expand_ok hrate] at hx
    subst hx
    rw [bind_eq_error] at h
    rcases h with h | ⟨b1, hb1, h⟩
    · exact .inr (big (mulInt_error h))
    obtain ⟨_, hb1⟩ := mulInt_eq_ok.1 hb1
    rw [part18] at hb1
    rw [bind_eq_error] at h
    rcases h with h | ⟨burn, hburn, h⟩
    · exact .inr (big (sub_error h))
    obtain ⟨hb2, hb3⟩ := sub_eq_ok.1 hburn
    rw [bind_eq_error] at h
    rcases h with h | ⟨_, _, h⟩
    · obtain ⟨h1, rfl⟩ := require_eq_error.1 h
      refine .inr ⟨infos, c, _, _, paid, hin, hr, hfu, .inr (.inr ⟨a, out, si, v0, _, rfl, h2, h3, .inr ?_⟩)⟩
      show paid + 1 < part (undoRate c.fee.burnFee) res.index
      rw [← hb1]
      omega
    rw [bind_eq_error] at h
    rcases h with h | ⟨rate', hr', h⟩
    · exact .inr (big (deductFee_error h))
    rw [bind_eq_error] at h
    rcases h with h | ⟨burnt, _, h⟩
    · exact .inr (big (mulInt_error h))
    rw [bind_eq_error] at h
    rcases h with h | ⟨⟨t, rs⟩, htok, h⟩
    · exact fails (tokenIn_fails h)
    rw [bind_eq_error] at h
    rcases h with h | ⟨_, _, h⟩
    · rcases outMsgs_error (tokenIn_sum htok) h with h1 | ⟨h1, rfl⟩ | ⟨_, hlt⟩
      · exact .inr (big h1)
      · have hb : Brings { env := p.env, pools := pools, swapInfo := infos, units := c1.indexUnits } out.denom burnt 0 :=
          ⟨_, htok⟩
        rw [Brings_eq] at hb
        exact .inr (worth hb h1)
      · exact absurd hlt (Nat.lt_irrefl _)
    · cases h

/-- **C114 (zaps).** When the periphery refuses a message, the kind of the error is true of the message: either the
chain itself answered with this error, or the fact that the kind stands for holds — an unreadable hop, a wrong address,
no core contract, a wrong payment, a missing route or pool, a limit that cannot be kept, a search that does not end, a
pool that refuses a swap, a basket worth nothing, or a number that does not fit. -/
theorem C114_zap_reason {p : PEnv} {info : Info} {msg : PExecMsg} {e : Err}
    (hr : ∀ c, p.core (addressOf msg) = some c → Reachable c) (h : Periphery.execute p info msg = .error e) :
    ChainSays p msg e ∨ Reason p info msg e := by
  cases msg with
  | mintExactIn a d min si =>
    simp only [Periphery.execute, bind_eq_error] at h
    rcases h with h | ⟨infos, hin, h⟩
    · obtain ⟨rfl, h1⟩ := parseInfos_error h
      exact .inr (.inr h1)
    · exact mintIn_reason hin h
  | mintExactOut a n d si =>
    simp only [Periphery.execute, bind_eq_error] at h
    rcases h with h | ⟨infos, hin, h⟩
    · obtain ⟨rfl, h1⟩ := parseInfos_error h
      exact .inr (.inr h1)
    · exact mintOut_reason hin h
  | burnExactIn a d min si =>
    simp only [Periphery.execute, bind_eq_error] at h
    rcases h with h | ⟨infos, hin, h⟩
    · obtain ⟨rfl, h1⟩ := parseInfos_error h
      exact .inr (.inr h1)
    · exact burnIn_reason hr hin h
  | burnExactOut a c si =>
    simp only [Periphery.execute, bind_eq_error] at h
    rcases h with h | ⟨infos, hin, h⟩
    · obtain ⟨rfl, h1⟩ := parseInfos_error h
      exact .inr (.inr h1)
    · exact burnOut_reason hr hin h
  | finishOperation a d =>
    simp only [Periphery.execute, finishOperation, bind_eq_error] at h
    rcases h with h | ⟨_, _, h | ⟨_, _, h⟩⟩
    · obtain ⟨h1, rfl⟩ := require_eq_error.1 h
      exact .inr (.inl ⟨a, d, rfl, h1⟩)
    · obtain ⟨rfl, h1⟩ := validate_error h
      exact .inr h1
    · cases h

/-- Nine refusals and their kinds: a limit that cannot be kept (twice), a route that is missing, a basket worth nothing
(twice; a minimum of zero is one of them, since the search starts there), a hop that is not readable, a stranger who ends
a zap, no core contract at the address, and the wrong coin. -/
example :
    let p := zapWorld.penv zapEnv zapPools
    let p2 := zapWorld2.penv zapEnv zapPools
    let kind : Res (List PMsg) → Option Err := fun r => match r with | .ok _ => none | .error e => some e
    kind (Periphery.execute p ⟨"bob", [⟨"uosmo", 70000⟩]⟩ (.mintExactIn "core" "uosmo" 40001 zapRoutes)) =
        some .tradeAmountExceeded ∧
      kind (Periphery.execute p2 ⟨"bob", [⟨"factory/core/ibcx", 1012⟩]⟩ (.burnExactIn "core" "uosmo" 1734 zapSaleRoutes)) =
        some .tradeAmountExceeded ∧
      kind (Periphery.execute p2 ⟨"bob", [⟨"factory/core/ibcx", 1012⟩]⟩ (.burnExactIn "core" "uosmo" 1733 [])) =
        some .notFound ∧
      kind (Periphery.execute p2 ⟨"bob", [⟨"factory/core/ibcx", 1⟩]⟩ (.burnExactIn "core" "uosmo" 0 zapSaleRoutes)) =
        some .divideByZero ∧
      kind (Periphery.execute p ⟨"bob", [⟨"uosmo", 70000⟩]⟩ (.mintExactIn "core" "uosmo" 0 zapRoutes)) =
        some .divideByZero ∧
      kind (Periphery.execute p ⟨"bob", [⟨"uosmo", 70000⟩]⟩
        (.mintExactIn "core" "uosmo" 30000 [⟨"uosmo,uatom", ["one,uosmo"]⟩])) = some .panic ∧
      kind (Periphery.execute p ⟨"bob", []⟩ (.finishOperation "bob" "uosmo")) = some .panic ∧
      kind (Periphery.execute p ⟨"bob", [⟨"uosmo", 70000⟩]⟩ (.mintExactOut "nobody" 400 "uosmo" zapRoutes)) =
        some .querier ∧
      kind (Periphery.execute p ⟨"bob", [⟨"uatom", 70000⟩]⟩ (.mintExactOut "core" 400 "uosmo" zapRoutes)) =
        some .payment := by
  decide +kernel

/-- The fact behind the missing route. -/
example : NoWay (zapWorld2.penv zapEnv zapPools) (.burnExactIn "core" "uosmo" 1733 []) := by
  have h : Periphery.execute (zapWorld2.penv zapEnv zapPools) ⟨"bob", [⟨"factory/core/ibcx", 1012⟩]⟩
      (.burnExactIn "core" "uosmo" 1733 []) = .error .notFound := by
    have : (match Periphery.execute (zapWorld2.penv zapEnv zapPools) ⟨"bob", [⟨"factory/core/ibcx", 1012⟩]⟩
      (.burnExactIn "core" "uosmo" 1733 []) with | .ok _ => none | .error e => some e) = some .notFound := by decide +kernel
    split at this
    · cases this
    · rename_i h1
      cases this
      exact h1
  have hr : ∀ c, (zapWorld2.penv zapEnv zapPools).core "core" = some c → Reachable c := by
    intro c hc
    have e : (zapWorld2.penv zapEnv zapPools).core "core" = some Demo.s1 := rfl
    cases e.symm.trans hc
    exact Demo.s1_reachable
  rcases C114_zap_reason hr h with h1 | h1
  · have e : parseInfos ([] : List Compact) = .ok [] := rfl
    cases h1 with
    | pool h1 h2 => cases e.symm.trans h1; obtain ⟨_, hi, _⟩ := h2; cases hi
    | spread h1 h2 => cases e.symm.trans h1; obtain ⟨_, hi, _⟩ := h2; cases hi
    | sale h1 h2 => cases e.symm.trans h1; obtain ⟨_, hi, _⟩ := h2; cases hi
    | purchase h1 h2 => cases e.symm.trans h1; obtain ⟨_, hi, _⟩ := h2; cases hi
  · exact h1

/-! ### The other way round -/

private theorem mapM_fails {α β : Type} {f : α → Res β} {l : List α} {e : Err}
    (h : ∀ a ∈ l, ∀ e', f a = .error e' → e' = e) {a : α} (ha : a ∈ l) (hf : f a = .error e) : l.mapM f = .error e := by
  cases hm : l.mapM f with
  | error e' => rw [mapM_error (P := (· = e)) h hm]
  | ok bs =>
    exfalso
    rw [mapM_eq_ok] at hm
    induction hm with
    | nil => cases ha
    | cons hxy _ ih =>
      rcases List.mem_cons.1 ha with rfl | ha
      · rw [hf] at hxy; cases hxy
      · exact ih (fun a ha => h a (List.mem_cons_of_mem _ ha)) ha

private theorem badHop_fails {t : String} (h : BadHop t) : parseRoute t = .error .panic := by
  cases hp : parseRoute t with
  | error e => rw [(parseRoute_error hp).1]
  | ok r =>
    obtain ⟨id, d⟩ := r
    obtain ⟨h1, ⟨num, h2, h3⟩, _⟩ := (C72_hop_text t id d).1 hp
    exact absurd ⟨num, id, h2, h3, h1⟩ h

theorem badHops_fail {si : List Compact} (h : ∃ i ∈ si, ∃ t ∈ i.routes, BadHop t) :
    parseInfos si = .error .panic := by
  obtain ⟨i, hi, t, ht, hb⟩ := h
  refine mapM_fails (fun j hj e h => ?_) hi ?_
  · simp only [parseInfo, bind_eq_error] at h
    rcases h with h | ⟨_, _, h⟩
    · exact mapM_error (P := (· = .panic)) (fun t _ e h => (parseRoute_error h).1) h
    · cases h
  · simp only [parseInfo, bind_eq_error]
    exact .inl (mapM_fails (fun t _ e h => (parseRoute_error h).1) ht (badHop_fails hb))

theorem goodHops_ok {si : List Compact} (h : ¬ ∃ i ∈ si, ∃ t ∈ i.routes, BadHop t) :
    ∃ infos, parseInfos si = .ok infos := by
  cases hp : parseInfos si with
  | error e => exact absurd (parseInfos_error hp).2 h
  | ok infos => exact ⟨infos, rfl⟩

/-- **C114 (obstacles are named).** A zap with an unreadable hop aborts, whatever else is wrong with it.  With readable
routes it is told of a wrong address, and with a good address of the missing core contract.  The end of a zap aborts
unless the contract itself asks for it. -/
theorem C114_zap_named (p : PEnv) (info : Info) (msg : PExecMsg) :
    (IsZap msg →
      ((∃ i ∈ textsOf msg, ∃ t ∈ i.routes, BadHop t) → Periphery.execute p info msg = .error .panic) ∧
      ((¬ ∃ i ∈ textsOf msg, ∃ t ∈ i.routes, BadHop t) → p.env.validAddr (addressOf msg) = false →
        Periphery.execute p info msg = .error .invalidAddr) ∧
      ((¬ ∃ i ∈ textsOf msg, ∃ t ∈ i.routes, BadHop t) → p.env.validAddr (addressOf msg) = true →
        p.core (addressOf msg) = none → Periphery.execute p info msg = .error .querier)) ∧
    (∀ a d, msg = .finishOperation a d → info.sender ≠ p.env.contract →
      Periphery.execute p info msg = .error .panic) := by
  have bad : ∀ {a : Addr}, p.env.validAddr a = false → findCore p a = .error .invalidAddr := by
    intro a h; simp [findCore, validate, h]
  have none : ∀ {a : Addr}, p.env.validAddr a = true → p.core a = none → findCore p a = .error .querier := by
    intro a h h1; simp [findCore, validate, h, h1, ok_bind]
  refine ⟨fun hz => ⟨fun h => ?_, fun h hv => ?_, fun h hv hc => ?_⟩, ?_⟩
  · cases msg
    case finishOperation => exact hz.elim
    all_goals
      simp only [Periphery.execute, bind_eq_error]
      exact .inl (badHops_fail h)
  · obtain ⟨infos, hi⟩ := goodHops_ok h
    cases msg
    case finishOperation => exact hz.elim
    all_goals
      simp only [textsOf] at hi
      simp only [Periphery.execute, hi, ok_bind, mintExactIn, mintExactOut, burnExactIn, burnExactOut]
      rw [bind_eq_error]
      exact .inl (bad hv)
  · obtain ⟨infos, hi⟩ := goodHops_ok h
    cases msg
    case finishOperation => exact hz.elim
    all_goals
      simp only [textsOf] at hi
      simp only [Periphery.execute, hi, ok_bind, mintExactIn, mintExactOut, burnExactIn, burnExactOut]
      rw [bind_eq_error]
      exact .inl (none hv hc)
  · rintro a d rfl h
    simp only [Periphery.execute, finishOperation, bind_eq_error, require_eq_error]
    exact .inl ⟨h, trivial⟩

/-- An unreadable hop comes before everything else. -/
example : (Periphery.execute (zapWorld.penv zapEnv zapPools) ⟨"bob", []⟩
      (.mintExactIn "nobody" "uosmo" 30000 [⟨"uosmo,uatom", ["one,uosmo"]⟩])) = .error .panic ∧
    BadHop "one,uosmo" := by
  have hb : BadHop "one,uosmo" := (parseRoute_error (t := "one,uosmo") (e := .panic) (by decide +kernel)).2
  exact ⟨((C114_zap_named _ _ (.mintExactIn "nobody" "uosmo" 30000 [⟨"uosmo,uatom", ["one,uosmo"]⟩])).1 trivial).1 ⟨_, List.mem_singleton_self _, _, List.mem_singleton_self _, hb⟩, hb⟩

end Ibcx.Props
