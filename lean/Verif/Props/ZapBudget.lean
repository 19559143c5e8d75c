import Verif.Props.ZapAccept
/-!
# C86: what a purchase may spend
-/

namespace Ibcx.Props
open Ibcx Ibcx.Core Ibcx.Pool Ibcx.Spec Ibcx.Periphery

/-- The spending limit of a message of the periphery. -/
def limitOf : PMsg → Nat
  | .chain m => spendLimit m
  | _ => 0

/-- What the messages of an operation may take of the input: the limits of the swaps, and the coins of the input denom
attached to the mint. -/
def maySpend (input : Denom) (ms : List PMsg) : Nat :=
  (ms.map limitOf).sum + (ms.map fun m => match m with
    | .core _ _ funds => total input funds
    | _ => 0).sum

/-- The full claim C86: a purchase for an exact input may spend at most what is attached. -/
def C86_full : Prop :=
  ∀ (p : PEnv) (info : Info) (a : Addr) (input : Denom) (min paid : Nat) (si : List Compact) (ms : List PMsg),
    (∀ c, p.core a = some c → Reachable c) → info.funds = [⟨input, paid⟩] →
    Periphery.execute p info (.mintExactIn a input min si) = .ok ms → maySpend input ms ≤ paid

/-- It is false: 10000 are added to the simulated cost.  Bob attaches 70000 uosmo for at least 40000 index tokens, and
the swap may take 11428 uosmo besides the 60000 that are attached to the mint. -/
theorem C86_full_false : ¬ C86_full := by
  intro h
  have h1 : (Periphery.execute (zapWorld.penv zapEnv zapPools) ⟨"bob", [⟨"uosmo", 70000⟩]⟩
      (.mintExactIn "core" "uosmo" 40000 zapRoutes)).map (maySpend "uosmo") = .ok 71428 := by decide +kernel
  obtain ⟨ms, h2, h3⟩ := ok_of_map h1
  have := h _ _ _ _ _ _ _ _ (fun c => zapWorld_core) rfl h2
  omega

private theorem sum_shares {limit all : Nat} (vs : List Nat) (h : vs.sum ≤ all) :
    (vs.map (shareOfLimit limit all)).sum ≤ limit := by
  have key : ∀ (P k : Nat) (vs : List Nat), P * (vs.map fun v => k * v / P).sum ≤ k * vs.sum := by
    intro P k vs
    induction vs with
    | nil => simp
    | cons v vs ih =>
      rw [List.map_cons, List.sum_cons, List.sum_cons, Nat.mul_add, Nat.mul_add]
      exact Nat.add_le_add (Nat.mul_div_le _ _) ih
  have hp : 0 < (10 : Nat) ^ 18 := by norm_num
  unfold shareOfLimit
  generalize (10 : Nat) ^ 18 = P at hp
  have h1 := key P (limit * P / all) vs
  have h2 : limit * P / all * vs.sum ≤ P * limit := calc
    limit * P / all * vs.sum ≤ limit * P / all * all := Nat.mul_le_mul_left _ h
    _ ≤ limit * P := Nat.div_mul_le_self _ _
    _ = P * limit := Nat.mul_comm _ _
  exact Nat.le_of_mul_le_mul_left (h1.trans h2) hp

private theorem le_share {limit all v : Nat} (h0 : 0 < all) (h : all ≤ limit) : v ≤ shareOfLimit limit all v := by
  have hp : 0 < (10 : Nat) ^ 18 := by norm_num
  unfold shareOfLimit
  generalize (10 : Nat) ^ 18 = P at hp
  rw [Nat.le_div_iff_mul_le hp, Nat.mul_comm]
  apply Nat.mul_le_mul_right
  rw [Nat.le_div_iff_mul_le h0, Nat.mul_comm]
  exact Nat.mul_le_mul_right _ h

private theorem total_cons (d : Denom) (c : Coin) (cs : List Coin) :
    total d (c :: cs) = (if c.denom = d then c.amount else 0) + total d cs := by
  unfold total
  by_cases h : c.denom = d <;> simp [h]

private theorem purchases_limits {env : Env} {infos : List SwapInfo} {input : Denom} {self : Addr} {f : Nat → Nat}
    (hf : ∀ v, v ≤ f v) {ps : Pools} {cs : List Coin} {vs : List Nat}
    (h : BasketBought env infos input ps cs vs) :
    (((cs.zip vs).filterMap fun x => if x.1.denom = input then none
      else (infos.find? fun i => decide (i.src = input ∧ i.dst = x.1.denom)).map fun i =>
        PMsg.chain (.swapExactOut self i.routes x.1 (f x.2))).map limitOf).sum + total input cs ≤
      (vs.map f).sum := by
  induction h with
  | nil => simp
  | @keep _ c cs vs hd _ ih =>
    have := hf c.amount
    simp only [List.zip_cons_cons, List.filterMap_cons, hd, if_true, total_cons, List.map_cons, List.sum_cons]
    omega
  | @buy _ _ c cs i v vs hd hf _ _ ih =>
    simp only [List.zip_cons_cons, List.filterMap_cons, hd, if_false, hf, Option.map_some, total_cons, List.map_cons,
      List.sum_cons, limitOf, spendLimit]
    omega

private theorem purchases_budget {env : Env} {infos : List SwapInfo} {input : Denom} {self : Addr} {limit index : Nat}
    {us : Units} {ps : Pools} {costs : List Nat} {funds : List Coin} {a : Addr} {m : ExecMsg} {who : Addr}
    (hb : Bill env infos ps us input index costs) (h0 : 0 < costs.sum) (hle : costs.sum ≤ limit)
    (hs : Sorted funds us index) :
    maySpend input (purchases self infos input limit (basket us index) costs ++ [.core a m funds, .finish who input]) ≤
      limit := by
  have h1 := purchases_limits (self := self) (f := shareOfLimit limit costs.sum) (fun v => le_share h0 hle) hb.bought
  have h2 := sum_shares (limit := limit) costs (Nat.le_refl _)
  have h5 := h1.trans h2
  clear h1 h2
  have h3 : total input funds = total input (basket us index) := by
    unfold total
    exact ((hs.1.filter _).map _).sum_eq
  have h4 : ((purchases self infos input limit (basket us index) costs).map fun m => match m with
    | .core _ _ funds => total input funds
    | _ => 0).sum = 0 := by
    apply List.sum_eq_zero
    intro x hx
    obtain ⟨m, hm, rfl⟩ := List.mem_map.1 hx
    unfold purchases at hm
    obtain ⟨y, _, hy⟩ := List.mem_filterMap.1 hm
    split at hy
    · cases hy
    · obtain ⟨i, _, rfl⟩ := Option.map_eq_some_iff.1 hy
      rfl
  unfold maySpend
  rw [List.map_append, List.sum_append, List.map_append, List.sum_append, h4]
  simp only [List.map_cons, List.map_nil, List.sum_cons, List.sum_nil, limitOf, h3, purchases] at h5 ⊢
  omega

/-- **C86 (exact output).** A purchase of an exact amount of index tokens may spend at most what is attached. -/
theorem C86_exact_output {p : PEnv} {info : Info} {a : Addr} {index : Nat} {input : Denom} {paid : Nat}
    {si : List Compact} {ms : List PMsg} (hr : ∀ c, p.core a = some c → Reachable c)
    (hf : info.funds = [⟨input, paid⟩]) (hp : paid < 2 ^ 128) (hi : index < 2 ^ 128)
    (h : Periphery.execute p info (.mintExactOut a index input si) = .ok ms) : maySpend input ms ≤ paid := by
  rw [C84_mint_exact_out_accepted_iff hr (by rw [hf]; simpa using hp) hi] at h
  obtain ⟨infos, c, us, ps, paid', costs, funds, _, _, _, hf', _, hb, hle, ⟨h0, _⟩, hs, rfl⟩ := h
  rw [hf] at hf'
  cases hf'
  exact purchases_budget hb h0 hle hs

/-- 80000 uosmo are paid, 71428 may be spent. -/
example : (∀ c, (zapWorld.penv zapEnv zapPools).core "core" = some c → Reachable c) ∧
    (Periphery.execute (zapWorld.penv zapEnv zapPools) ⟨"bob", [⟨"uosmo", 80000⟩]⟩
      (.mintExactOut "core" 40000 "uosmo" zapRoutes)).map (maySpend "uosmo") = .ok 71428 :=
  ⟨fun _ => zapWorld_core, by decide +kernel⟩

/-- **C86 (exact input).** A purchase for an exact input may spend at most 10000 more than its simulated cost; so it
stays within the attached amount when that exceeds the simulated cost by 10000. -/
theorem C86_exact_input_partial {p : PEnv} {info : Info} {a : Addr} {input : Denom} {min : Nat}
    {si : List Compact} {ms : List PMsg} (hr : ∀ c, p.core a = some c → Reachable c)
    (h : Periphery.execute p info (.mintExactIn a input min si) = .ok ms) :
    ∃ infos c us ps index costs funds, parseInfos si = .ok infos ∧ Reads p a infos c us ps ∧
      Bill p.env infos ps us input index costs ∧
      .core a (.mint index (some info.sender) (some info.sender)) funds ∈ ms ∧
      maySpend input ms ≤ costs.sum + 10000 := by
  rw [C84_mint_exact_in_accepted_iff hr] at h
  obtain ⟨infos, c, us, ps, paid, v0, found, index, costs, funds, hin, hre, _, _, _, _, _, _, _, hb, _, ⟨h0, _⟩, hs, rfl⟩ := h
  exact ⟨infos, c, us, ps, index, costs, funds, hin, hre, hb, by simp, purchases_budget hb h0 (Nat.le_add_right _ _) hs⟩

/-- The hypotheses hold in the example: with 80000 uosmo attached the purchase of 40000 may spend 71428. -/
example : (Periphery.execute (zapWorld.penv zapEnv zapPools) ⟨"bob", [⟨"uosmo", 80000⟩]⟩
      (.mintExactOut "core" 40000 "uosmo" zapRoutes)).map (maySpend "uosmo") = .ok 71428 ∧
    (∀ c, (zapWorld.penv zapEnv zapPools).core "core" = some c → Reachable c) :=
  ⟨by decide +kernel, fun _ => zapWorld_core⟩

end Ibcx.Props
