import Mathlib.Data.List.Sort
import Verif.Props.ZapAccept
/-!
# How far the searches of a simulation and of the execution can be apart (C50)
-/

namespace Ibcx.Props
open Ibcx Ibcx.Pool Ibcx.Spec Ibcx.Periphery Ibcx.Core

private theorem forall₂_unique {ask : Nat → Res (Option Pool)} : ∀ {ids : List Nat} {as bs : List (Option Pool)},
    List.Forall₂ (fun n answer => ask n = .ok answer) ids as → List.Forall₂ (fun n answer => ask n = .ok answer) ids bs → as = bs
  | _, _, _, .nil, .nil => rfl
  | _, _, _, .cons h t, .cons h' t' => by
    rw [h] at h'
    cases h'
    rw [forall₂_unique t t']

private theorem increasing_unique : ∀ {xs ys : List Nat}, xs.Pairwise (· < ·) → ys.Pairwise (· < ·) → (∀ n, n ∈ xs ↔ n ∈ ys) → xs = ys
  | [], [], _, _, _ => rfl
  | [], y :: _, _, _, h => absurd ((h y).2 (List.mem_cons_self ..)) List.not_mem_nil
  | x :: _, [], _, _, h => absurd ((h x).1 (List.mem_cons_self ..)) List.not_mem_nil
  | x :: xs, y :: ys, hx, hy, h => by
    obtain ⟨hx1, hx2⟩ := List.pairwise_cons.1 hx
    obtain ⟨hy1, hy2⟩ := List.pairwise_cons.1 hy
    have e : x = y := by
      rcases List.mem_cons.1 ((h x).1 (List.mem_cons_self ..)) with e | e
      · exact e
      · rcases List.mem_cons.1 ((h y).2 (List.mem_cons_self ..)) with e' | e'
        · exact e'.symm
        · have := hx1 y e'; have := hy1 x e; omega
    subst e
    rw [increasing_unique hx2 hy2 fun n => ?_]
    constructor
    · intro hn
      rcases List.mem_cons.1 ((h n).1 (List.mem_cons_of_mem _ hn)) with e | e
      · subst e; exact absurd (hx1 n hn) (lt_irrefl _)
      · exact e
    · intro hn
      rcases List.mem_cons.1 ((h n).2 (List.mem_cons_of_mem _ hn)) with e | e
      · subst e; exact absurd (hy1 n hn) (lt_irrefl _)
      · exact e

private theorem reads_unique {p : PEnv} {a : Addr} {infos : List SwapInfo} {c c' : State} {us us' : Units} {ps ps' : Pools}
    (h : Reads p a infos c us ps) (h' : Reads p a infos c' us' ps') : c = c' ∧ us = us' ∧ ps = ps' := by
  have hc := h.core
  rw [h'.core] at hc
  cases hc
  obtain ⟨c1, e1, rfl⟩ := h.units
  obtain ⟨c2, e2, rfl⟩ := h'.units
  rw [e1] at e2
  cases e2
  obtain ⟨_, ⟨ids, as, i1, i2, i3, rfl⟩, rfl⟩ := h.pools
  obtain ⟨_, ⟨ids', bs, j1, j2, j3, rfl⟩, rfl⟩ := h'.pools
  obtain rfl := increasing_unique i1 j1 fun n => (i2 n).trans (j2 n).symm
  rw [forall₂_unique i3 j3]
  exact ⟨rfl, rfl, rfl⟩

private theorem search_end {priced : Nat → Nat → Prop} {target n : Nat} {t r : Trial} (h : Search priced target n t r) :
    priced r.index r.value ∧ Close target r := by
  induction h with
  | stop h1 h2 => exact ⟨h1.2.2.2.2, h2⟩
  | more _ _ _ ih => exact ih

/-- **C50 (deviation of purchases).** Simulate a purchase with exact input, then carry it out with any minimum, in the same
state. Both look for an amount that can be had for the input: the simulation finds `m`, the purchase finds `f`. The simulated
costs of both are at most the input and less than 5000 below it, so they differ by less than 5000. The simulation answers `m`
divided by one minus the fee, less 100; the purchase mints `f` less a third of its distance from the minimum. -/
theorem C50_mint_in_deviation_partial {p : PEnv} {info : Info} {a : Addr} {input : Denom} {paid min : Nat} {si : List Compact}
    {infos : List SwapInfo} {r : SimResp} {ms : List PMsg} (hr : ∀ c, p.core a = some c → Reachable c)
    (hp : parseInfos si = .ok infos) (hf : info.funds = [⟨input, paid⟩])
    (hs : simMintExactIn p a ⟨input, paid⟩ infos = .ok r)
    (hx : Periphery.execute p info (.mintExactIn a input min si) = .ok ms) :
    ∃ c us ps m vm f vf funds, Reads p a infos c us ps ∧
      CostsInAll p.env infos ps us input m vm ∧ CostsInAll p.env infos ps us input f vf ∧
      vm ≤ paid ∧ vf ≤ paid ∧ vm < vf + 5000 ∧ vf < vm + 5000 ∧
      r.amount + 100 = part (undoRate c.fee.mintFee) m ∧ r.swapResult = ⟨input, vm⟩ ∧ min ≤ f ∧
      PMsg.core a (.mint (f - third (f - min)) (some info.sender) (some info.sender)) funds ∈ ms := by
  obtain ⟨c, us, ps, v0, m, h1, _, h2, h3, _, _, _, h4⟩ := (C85_simulate_mint_exact_in_iff hr).1 hs
  obtain ⟨infos', c', us', ps', paid', w0, f, index, costs, funds, g1, g2, _, g3, _, _, g4, g5, rfl, _, _, _, _, rfl⟩ :=
    (C84_mint_exact_in_accepted_iff hr).1 hx
  rw [hp] at g1
  cases g1
  rw [hf] at g3
  cases g3
  obtain ⟨rfl, rfl, rfl⟩ := reads_unique h1 g2
  obtain ⟨a1, a2, a3, a4⟩ := search_end h2
  obtain ⟨b1, b2, b3, b4⟩ := search_end g4
  dsimp only at a3 a4
  exact ⟨c, us, ps, m.index, m.value, f.index, f.value, funds, h1, a1, b1, a3, b3, by omega, by omega, h3, h4, g5, by simp⟩

/-- The hypotheses hold on the example: with 70000 uosmo the simulation finds 40000 and answers 40000 / 0.99 - 100, the
purchase with minimum 30000 finds 40000 as well and mints 36667. -/
example : parseInfos zapRoutes = .ok [⟨"uosmo", "uatom", [⟨1, "uosmo"⟩]⟩] ∧
    (simMintExactIn (zapWorld.penv zapEnv zapPools) "core" ⟨"uosmo", 70000⟩ [⟨"uosmo", "uatom", [⟨1, "uosmo"⟩]⟩]).map
      (·.amount) = .ok 40304 ∧
    (Periphery.execute (zapWorld.penv zapEnv zapPools) ⟨"bob", [⟨"uosmo", 70000⟩]⟩
      (.mintExactIn "core" "uosmo" 30000 zapRoutes)).toOption =
      some [.chain (.swapExactOut "zap" [⟨1, "uosmo"⟩] ⟨"uatom", 9166⟩ 10594),
        .core "core" (.mint 36667 (some "bob") (some "bob")) [⟨"uatom", 9166⟩, ⟨"uosmo", 55000⟩], .finish "bob" "uosmo"] :=
  ⟨zapRoutes_ok, by decide +kernel, by decide +kernel⟩

/-- If moreover the simulated cost grows by at least `g` for each index token, the two amounts found differ by less than
`5000 / g` index tokens. -/
theorem C50_mint_in_amounts_partial {p : PEnv} {info : Info} {a : Addr} {input : Denom} {paid min g : Nat} {si : List Compact}
    {infos : List SwapInfo} {r : SimResp} {ms : List PMsg} (hr : ∀ c, p.core a = some c → Reachable c)
    (hp : parseInfos si = .ok infos) (hf : info.funds = [⟨input, paid⟩])
    (hs : simMintExactIn p a ⟨input, paid⟩ infos = .ok r)
    (hx : Periphery.execute p info (.mintExactIn a input min si) = .ok ms)
    (hg : ∀ c us ps i j vi vj, Reads p a infos c us ps → CostsInAll p.env infos ps us input i vi →
      CostsInAll p.env infos ps us input j vj → i ≤ j → vi + g * (j - i) ≤ vj) :
    ∃ c m f funds, p.core a = some c ∧ r.amount + 100 = part (undoRate c.fee.mintFee) m ∧ min ≤ f ∧
      PMsg.core a (.mint (f - third (f - min)) (some info.sender) (some info.sender)) funds ∈ ms ∧
      g * (m - f) < 5000 ∧ g * (f - m) < 5000 := by
  obtain ⟨c, us, ps, m, vm, f, vf, funds, h1, h2, h3, _, _, h4, h5, h6, _, h7, h8⟩ :=
    C50_mint_in_deviation_partial hr hp hf hs hx
  refine ⟨c, m, f, funds, h1.core, h6, h7, h8, ?_, ?_⟩
  · rcases le_total m f with h | h
    · rw [Nat.sub_eq_zero_of_le h]; omega
    · have := hg c us ps f m vf vm h1 h3 h2 h; omega
  · rcases le_total m f with h | h
    · have := hg c us ps m f vm vf h1 h2 h3 h; omega
    · rw [Nat.sub_eq_zero_of_le h]; omega

private theorem bill_of_example {ps : Pools} {v i : Nat} (hps : ∀ n p, ps n = some p → ∃ m, p = .queried m (.ok 0))
    (h : CostsInAll zapEnv [⟨"uosmo", "uatom", [⟨1, "uosmo"⟩]⟩] ps Demo.s0.indexUnits "uosmo" i v) :
    v = part 1500000000000000000 i + part 250000000000000000 i := by
  obtain ⟨costs, hb, rfl⟩ := h
  have hb := hb.bought
  simp only [basket, Demo.s0, List.map_cons, List.map_nil] at hb
  cases hb with
  | buy h1 => exact absurd rfl h1
  | keep _ h2 =>
    cases h2 with
    | keep h => exact absurd (show "uatom" = "uosmo" from h) (by decide)
    | buy _ h2 h3 h4 =>
      cases h4
      rw [show (List.find? (fun i : SwapInfo => decide (i.src = "uosmo" ∧ i.dst = "uatom")) [⟨"uosmo", "uatom", [⟨1, "uosmo"⟩]⟩]) =
        some ⟨"uosmo", "uatom", [⟨1, "uosmo"⟩]⟩ by decide] at h2
      cases h2
      cases h3 with
      | hop g1 g2 g3 g4 =>
        obtain ⟨m, rfl⟩ := hps _ _ g1
        cases g2 with
        | chain g2 =>
          cases g2
          cases g4
          simp

private theorem part_grows {P u i j : Nat} (hP : 0 < P) (hu : P ≤ u) (h : i ≤ j) : u * i / P + (j - i) ≤ u * j / P := by
  rw [← Nat.add_mul_div_left _ _ hP]
  refine Nat.div_le_div_right ?_
  obtain ⟨k, rfl⟩ := Nat.exists_eq_add_of_le h
  rw [Nat.add_sub_cancel_left, Nat.mul_add]
  exact Nat.add_le_add_left (Nat.mul_le_mul_right _ hu) _

/-- On the example the simulated cost grows by at least one for each index token: the basket of an index token has one and a
half uosmo in it. So the growth condition holds with `g = 1`. -/
example : ∀ c us ps i j vi vj, Reads (zapWorld.penv zapEnv zapPools) "core" [⟨"uosmo", "uatom", [⟨1, "uosmo"⟩]⟩] c us ps →
    CostsInAll zapEnv [⟨"uosmo", "uatom", [⟨1, "uosmo"⟩]⟩] ps us "uosmo" i vi →
    CostsInAll zapEnv [⟨"uosmo", "uatom", [⟨1, "uosmo"⟩]⟩] ps us "uosmo" j vj → i ≤ j → vi + 1 * (j - i) ≤ vj := by
  intro c us ps i j vi vj hr hi hj hle
  obtain ⟨c1, e1, rfl⟩ := hr.units
  have hc : c = Demo.s0 := by have := hr.core; exact (Option.some.inj (this.symm.trans (show _ = some Demo.s0 from rfl)))
  subst hc
  have h1 : (collectStreamingFee Demo.s0 1000).map (·.indexUnits) = .ok Demo.s0.indexUnits := by decide +kernel
  have e1 : collectStreamingFee Demo.s0 1000 = .ok c1 := e1
  rw [e1] at h1
  have h1 : c1.indexUnits = Demo.s0.indexUnits := Except.ok.inj h1
  obtain ⟨_, ⟨ids, as, i1, i2, i3, rfl⟩, rfl⟩ := hr.pools
  have hps : ∀ n p, byId (as.filterMap id) n = some p → ∃ m, p = .queried m (.ok 0) := by
    intro n p hp
    have hm := List.mem_of_find?_eq_some hp
    simp only [List.mem_reverse, List.mem_filterMap, id] at hm
    obtain ⟨x, hx, rfl⟩ := hm
    clear hr hi hj hp i1 i2
    induction i3 with
    | nil => cases hx
    | cons h _ ih =>
      rcases List.mem_cons.1 hx with e | e
      · subst e
        cases h
        exact ⟨_, rfl⟩
      · exact ih e
  rw [h1] at hi hj
  rw [bill_of_example hps hi, bill_of_example hps hj]
  have a1 : part 1500000000000000000 i + (j - i) ≤ part 1500000000000000000 j :=
    part_grows (by norm_num) (by norm_num) hle
  have a2 : part 250000000000000000 i ≤ part 250000000000000000 j :=
    Nat.div_le_div_right (Nat.mul_le_mul_left _ hle)
  omega

/-- **C50 (deviation of sales).** The same for sales with exact output: the simulation finds `m`, the sale finds `f`, and the
simulated proceeds of both are at most the output asked for and less than 5000 below it. The simulation answers `m` divided by
one minus the burn fee, the sale burns `f` divided likewise, less one. -/
theorem C50_burn_out_deviation_partial {p : PEnv} {info : Info} {a : Addr} {desired : Coin} {si : List Compact}
    {infos : List SwapInfo} {r : SimResp} {ms : List PMsg} (hr : ∀ c, p.core a = some c → Reachable c)
    (hp : parseInfos si = .ok infos) (hf : ∀ c ∈ info.funds, c.amount < 2 ^ 128)
    (hs : simBurnExactOut p a desired infos = .ok r)
    (hx : Periphery.execute p info (.burnExactOut a desired si) = .ok ms) :
    ∃ c us ps m vm f vf burn, Reads p a infos c us ps ∧
      BringsInAll p.env infos ps us desired.denom m vm ∧ BringsInAll p.env infos ps us desired.denom f vf ∧
      vm ≤ desired.amount ∧ vf ≤ desired.amount ∧ vm < vf + 5000 ∧ vf < vm + 5000 ∧
      r.amount = part (undoRate c.fee.burnFee) m ∧ r.swapResult = ⟨desired.denom, vm⟩ ∧
      burn + 1 = part (undoRate c.fee.burnFee) f ∧
      PMsg.core a (.burn none) [⟨c.config.indexDenom, burn⟩] ∈ ms := by
  obtain ⟨c, us, ps, v0, m, h1, _, h2, h3, _, _, _, h4⟩ := (C85_simulate_burn_exact_out_iff hr).1 hs
  obtain ⟨infos', c', us', ps', paid', w0, f, v1, burn, outs, g1, g2, _, g3, _, _, g4, _, _, g5, _, _, _, _, rfl⟩ :=
    (C84_burn_exact_out_accepted_iff hr hf).1 hx
  rw [hp] at g1
  cases g1
  obtain ⟨rfl, rfl, rfl⟩ := reads_unique h1 g2
  obtain ⟨a1, a2, a3, a4⟩ := search_end h2
  obtain ⟨b1, b2, b3, b4⟩ := search_end g4
  exact ⟨c, us, ps, m.index, m.value, f.index, f.value, burn, h1, a1, b1, a3, b3, by omega, by omega, h3, h4, g5, by simp⟩

/-- The hypotheses hold on the example: for 1717 uosmo the simulation names 1001 index tokens, the sale burns 1000. -/
example : parseInfos zapSaleRoutes = .ok [⟨"uatom", "uosmo", [⟨1, "uosmo"⟩]⟩] ∧
    (simBurnExactOut (zapWorld2.penv zapEnv zapPools) "core" ⟨"uosmo", 1717⟩
      [⟨"uatom", "uosmo", [⟨1, "uosmo"⟩]⟩]).map (·.amount) = .ok 1001 ∧
    (Periphery.execute (zapWorld2.penv zapEnv zapPools) ⟨"bob", [⟨"factory/core/ibcx", 5000⟩]⟩
      (.burnExactOut "core" ⟨"uosmo", 1717⟩ zapSaleRoutes)).toOption =
      some [.core "core" (.burn none) [⟨"factory/core/ibcx", 1000⟩],
        .chain (.swapExactIn "zap" [⟨1, "uosmo"⟩] ⟨"uatom", 245⟩ 245), .finish "bob" "factory/core/ibcx",
        .finish "bob" "uosmo"] :=
  ⟨by decide +kernel, by decide +kernel, by decide +kernel⟩

end Ibcx.Props
