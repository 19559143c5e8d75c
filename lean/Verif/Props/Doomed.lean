import Verif.Props.Completion
import Mathlib.Data.Nat.GCD.Basic
/-!
# C124: rebalances that cannot be completed from the start, and how anyone can bring them about
-/

namespace Ibcx.Props
open Ibcx Ibcx.Core Ibcx.Spec

/-- Generic form of the arithmetic, `P` standing for `10^18`. -/
private theorem exact_part {P T e k : Nat} (hT : 0 < T) (he : 0 < e) (h : e * T = k * P) : P ≤ e * Nat.gcd T P := by
  have hG : 0 < Nat.gcd T P := Nat.gcd_pos_of_pos_left _ hT
  obtain ⟨T', hT'⟩ := Nat.gcd_dvd_left T P
  obtain ⟨P', hP'⟩ := Nat.gcd_dvd_right T P
  have hco : Nat.Coprime (T / Nat.gcd T P) (P / Nat.gcd T P) := Nat.coprime_div_gcd_div_gcd hG
  have eT : T / Nat.gcd T P = T' := by
    rw [Nat.div_eq_of_eq_mul_right hG hT']
  have eP : P / Nat.gcd T P = P' := by
    rw [Nat.div_eq_of_eq_mul_right hG hP']
  rw [eT, eP] at hco
  generalize Nat.gcd T P = G at *
  have h1 : e * T' = k * P' := by
    have : G * (e * T') = G * (k * P') := by
      calc G * (e * T') = e * (G * T') := by ring
        _ = e * T := by rw [← hT']
        _ = k * P := h
        _ = k * (G * P') := by rw [← hP']
        _ = G * (k * P') := by ring
    exact Nat.eq_of_mul_eq_mul_left hG this
  have h2 : P' ∣ e := hco.symm.dvd_of_dvd_mul_right ⟨k, by rw [h1, Nat.mul_comm]⟩
  have h3 : P' ≤ e := Nat.le_of_dvd he h2
  calc P = G * P' := hP'
    _ ≤ G * e := Nat.mul_le_mul_left _ h3
    _ = e * G := Nat.mul_comm _ _

/-- **C124 (arithmetic).** An amount below `10^18` divided by the greatest common divisor of the supply and `10^18` cannot
be moved by swaps of whole base units; this amount itself can. -/
theorem C124_smallest_closable {T : Nat} (hT : 0 < T) :
    (∀ g, 0 < g → g * Nat.gcd T 1000000000000000000 < 1000000000000000000 → ¬ Closable T g) ∧
    ∀ g, g * Nat.gcd T 1000000000000000000 = 1000000000000000000 → Closable T g := by
  constructor
  · intro g hg hlt hc
    rcases (C98_closable_iff hT).1 hc with h0 | ⟨e, k, ns, he, hk, hge⟩
    · omega
    · have h1 := exact_part hT he hk
      have h2 : e * Nat.gcd T 1000000000000000000 ≤ g * Nat.gcd T 1000000000000000000 :=
        Nat.mul_le_mul_right _ (by omega)
      exact absurd (lt_of_le_of_lt (h1.trans h2) hlt) (lt_irrefl _)
  · intro g hg
    obtain ⟨k, hk⟩ := Nat.gcd_dvd_left T 1000000000000000000
    refine closable_exact (k := k) hT ?_
    generalize Nat.gcd T 1000000000000000000 = G at hg hk
    rw [hk, ← hg]
    ring

/-- With a supply of 9990 a tenth can be moved and nothing below it; with 9991 a whole and nothing below it. -/
example : Closable 9990 100000000000000000 ∧ ¬ Closable 9990 99999999999999999 ∧
    Closable 9991 1000000000000000000 ∧ ¬ Closable 9991 999999999999999999 := by
  refine ⟨(C124_smallest_closable (by decide)).2 _ (by decide +kernel), (C124_smallest_closable (by decide)).1 _ (by decide)
    (by decide +kernel), (C124_smallest_closable (by decide)).2 _ (by decide +kernel),
    (C124_smallest_closable (by decide)).1 _ (by decide) (by decide +kernel)⟩

private theorem supply_pos {T g : Nat} (h : ¬ 0 < T) : 0 < g → ¬ Closable T g := by
  intro hg hc
  cases hc with
  | done => omega
  | swap n hs _ _ _ => exact h hs

/-- **C124 (doomed from the start).** If an accepted `Init` wants less taken out of the basket, of some denom other than the
reserve denom, than `10^18` divided by the greatest common divisor of the supply and `10^18`, then the rebalance never
ends: whatever anybody does and the market answers, `Mint`, `Burn` and `Finalize` are rejected for ever. -/
theorem C124_doomed_at_start {s s' : State} {env : Env} {info : Info} {man : Option Addr} {defl infl : Units}
    {ms : List Msg} {d : Denom} {target cur : Nat} (hr : Reachable s)
    (h : execute s env info (.rebalance (.init man defl infl)) = .ok (s', ms)) (hd : d ≠ s.config.reserveDenom)
    (ht : (d, target) ∈ defl) (hc : s'.indexUnits.lookup d = some cur) (hlt : target < cur)
    (hsmall : (cur - target) * Nat.gcd s.totalSupply 1000000000000000000 < 1000000000000000000) (cs : List Call) :
    (∃ r', (run s' cs).1.rebalance = some r' ∧ r'.deflation = defl ∧ r'.inflation = infl) ∧
    ∀ c : Call, (TokenMsg c.msg ∨ c.msg = .rebalance .finalize) → ¬ accepted (run s' cs).1 c := by
  have hr' := hr.execute h
  obtain ⟨s1, h1, h2⟩ := execute_eq_ok.1 h
  have hs : s1.config.reserveDenom = s.config.reserveDenom ∧ s1.totalSupply = s.totalSupply := by
    have f := collectStreamingFee_frame (show collectStreamingFee s env.now = .ok s1 from h1)
    exact ⟨by rw [f.1], f.2.2.1⟩
  have h3 : init s1 env info man defl infl = .ok (s', ms) := h2
  obtain ⟨_, _, _, _, _, _, hnd, hs', _⟩ := init_eq_ok.1 h3
  have e1 : s'.rebalance = some { manager := man, deflation := defl, inflation := infl } := by rw [hs']
  have e2 : s'.config.reserveDenom = s.config.reserveDenom := by rw [hs']; exact hs.1
  have e3 : s'.totalSupply = s.totalSupply := by rw [hs']; exact hs.2
  have hl : defl.lookup d = some target := by
    rw [lookup_eq]
    exact Units.mem_getKey (by rw [Units.denoms]; exact (List.nodup_append.1 hnd).1) ht
  refine C98_open_gap_blocks hr' e1 (by rw [e2]; exact hd) hl hc ?_ cs
  rw [e3]
  by_cases hT : 0 < s.totalSupply
  · exact (C124_smallest_closable hT).1 _ (Nat.sub_pos_of_lt hlt) hsmall
  · exact supply_pos hT (Nat.sub_pos_of_lt hlt)

/-- The rebalance of the examples, which wants a fifth of a base unit of uatom taken out, with a supply of 10001. -/
def doomed : List Call :=
  [⟨Demo.env 1000, ⟨"mallory", [⟨"uosmo", 10⟩, ⟨"uatom", 10⟩]⟩, .mint 1 none none⟩] ++ closeHistory

example : Reachable Demo.s1 ∧
    (run Demo.s1 doomed).1.rebalance = some ⟨none, [("uatom", 50000000000000000)], [("uion", 1000000000000000000)]⟩ ∧
    (run Demo.s1 doomed).1.indexUnits.lookup "uatom" = some 250000000000000000 ∧
    (run Demo.s1 doomed).1.totalSupply = 10001 ∧ "uatom" ≠ (run Demo.s1 doomed).1.config.reserveDenom ∧
    (250000000000000000 - 50000000000000000) * Nat.gcd 10001 1000000000000000000 < 1000000000000000000 ∧
    (250000000000000000 - 50000000000000000) * Nat.gcd 10000 1000000000000000000 ≥ 1000000000000000000 :=
  ⟨Demo.s1_reachable, by decide +kernel, by decide +kernel, by decide +kernel, by decide +kernel, by decide +kernel,
    by decide +kernel⟩

private theorem next_coprime (T : Nat) : ∃ r, 1 ≤ r ∧ r ≤ 4 ∧ Nat.Coprime (T + r) 10 := by
  have key : ∀ m < 10, ∃ r ∈ [1, 2, 3, 4], Nat.gcd ((m + r) % 10) 10 = 1 := by decide
  obtain ⟨r, h1, h3⟩ := key (T % 10) (Nat.mod_lt _ (by decide))
  have h2 : 1 ≤ r ∧ r ≤ 4 := by simp at h1; omega
  refine ⟨r, h2.1, h2.2, ?_⟩
  rw [Nat.Coprime, Nat.gcd_comm, Nat.gcd_rec, Nat.add_mod]
  rw [Nat.add_mod, Nat.mod_mod] at h3
  exact h3

/-- **C124 (anyone can doom it).** In every state there is an amount of one to four base units such that, if anybody mints
it and governance then starts a rebalance that wants less than one base unit per index token taken out of the basket of
some denom other than the reserve denom, the rebalance never ends. -/
theorem C124_anyone_can_doom {s : State} (hr : Reachable s) :
    ∃ amount, 1 ≤ amount ∧ amount ≤ 4 ∧
      ∀ env anyone receiver refundTo s1 ms1, execute s env anyone (.mint amount receiver refundTo) = .ok (s1, ms1) →
      ∀ env' gov man defl infl s2 ms2, execute s1 env' gov (.rebalance (.init man defl infl)) = .ok (s2, ms2) →
      ∀ d target cur, d ≠ s.config.reserveDenom → (d, target) ∈ defl → s2.indexUnits.lookup d = some cur →
      target < cur → cur - target < 1000000000000000000 → ∀ cs : List Call,
        (∃ r', (run s2 cs).1.rebalance = some r' ∧ r'.deflation = defl ∧ r'.inflation = infl) ∧
        ∀ c : Call, (TokenMsg c.msg ∨ c.msg = .rebalance .finalize) → ¬ accepted (run s2 cs).1 c := by
  obtain ⟨r, h1, h2, h3⟩ := next_coprime s.totalSupply
  refine ⟨r, h1, h2, ?_⟩
  intro env anyone receiver refundTo s1 ms1 hm env' gov man defl infl s2 ms2 hi d target cur hd ht hc hlt hone cs
  obtain ⟨s0, g1, g2⟩ := execute_eq_ok.1 hm
  have hs : s0.config.reserveDenom = s.config.reserveDenom ∧ s0.totalSupply = s.totalSupply := by
    have f := collectStreamingFee_frame (show collectStreamingFee s env.now = .ok s0 from g1)
    exact ⟨by rw [f.1], f.2.2.1⟩
  have g3 : mint s0 env anyone r receiver refundTo = .ok (s1, ms1) := g2
  obtain ⟨_, _, _, _, _, _, _, hs1, _⟩ := mint_eq_ok.1 g3
  have e1 : s1.config.reserveDenom = s.config.reserveDenom := by rw [hs1]; exact hs.1
  have e2 : s1.totalSupply = s.totalSupply + r := by
    rw [hs1]
    show s0.totalSupply + r = _
    rw [hs.2]
  refine C124_doomed_at_start (hr.execute hm) hi (by rw [e1]; exact hd) ht hc hlt ?_ cs
  have hco : Nat.gcd s1.totalSupply 1000000000000000000 = 1 := by
    rw [e2]
    have := Nat.Coprime.pow_right 18 h3
    have e : (10 : Nat) ^ 18 = 1000000000000000000 := by norm_num
    rw [e] at this
    exact this
  rw [hco, Nat.mul_one]
  exact hone

/-- In the state of the examples, whose supply is 10000, a mint of one is accepted and then so is the rebalance, which could
have been completed before. -/
example : Reachable Demo.s1 ∧
    accepted Demo.s1 ⟨Demo.env 1000, ⟨"mallory", [⟨"uosmo", 10⟩, ⟨"uatom", 10⟩]⟩, .mint 1 none none⟩ ∧
    (run Demo.s1 doomed).1.rebalance ≠ none ∧ Nat.Coprime 10001 10 ∧
    (∃ cs, (run (run Demo.s1 closeHistory).1 cs).1.rebalance = none) := by
  refine ⟨Demo.s1_reachable, by decide +kernel, by decide +kernel, by decide +kernel, [closing,
    ⟨Demo.env 3000, ⟨"bob", []⟩, .rebalance (.trade (.inflate "uion" 1999 0))⟩,
    ⟨Demo.env 4000, ⟨"bob", []⟩, .rebalance .finalize⟩], by decide +kernel⟩

/-- **C124 (what was earned too little).** If all targets are met and the reserve holds for a denom other than the reserve
denom less than `10^18` divided by the greatest common divisor of the supply and `10^18`, the rebalance never ends on a
market that gives nothing for nothing. -/
theorem C124_small_reserve {s : State} {r : Rebalance} {d : Denom} {u : Nat} {res : Units}
    (hr : Reachable s) (hreb : s.rebalance = some r) (hd : d ≠ s.config.reserveDenom)
    (hmet : ∀ d target, (d, target) ∈ r.deflation → s.indexUnits.lookup d = some target)
    (hres : s.reserveUnits = some res) (hu : res.lookup d = some u) (hpos : 0 < u)
    (hsmall : u * Nat.gcd s.totalSupply 1000000000000000000 < 1000000000000000000)
    (cs : List Call) (hcs : ∀ c ∈ cs, NoGifts c.env) :
    (∃ r', (run s cs).1.rebalance = some r' ∧ r'.deflation = r.deflation ∧ r'.inflation = r.inflation) ∧
    ∀ c : Call, (TokenMsg c.msg ∨ c.msg = .rebalance .finalize) → ¬ accepted (run s cs).1 c := by
  refine C98_leftover_blocks hr hreb hd hmet hres hu ?_ cs hcs
  by_cases hT : 0 < s.totalSupply
  · exact (C124_smallest_closable hT).1 _ hpos hsmall
  · exact supply_pos hT hpos

/-- A market on which uatom is worth half a reserve coin, less a fee. -/
def cheapEnv : Env := { Demo.env 2000 with estIn := fun _ c => .ok (2 * c.amount + 2) }

/-- With a supply of 9990 all 1998 base units of uatom to be sold bring 998: the tenth of a unit that could be spent is not
reached. -/
def cheapHistory : List Call :=
  [⟨Demo.env 1000, ⟨"alice", [⟨"factory/core/ibcx", 10⟩]⟩, .burn none⟩] ++ closeHistory ++
   [⟨cheapEnv, ⟨"bob", []⟩, .rebalance (.trade (.deflate "uatom" 998 2000))⟩]

example : Reachable (run Demo.s1 cheapHistory).1 ∧
    (run Demo.s1 cheapHistory).1.rebalance =
      some ⟨none, [("uatom", 50000000000000000)], [("uion", 1000000000000000000)]⟩ ∧
    (run Demo.s1 cheapHistory).1.indexUnits.lookup "uatom" = some 50000000000000000 ∧
    "uion" ≠ (run Demo.s1 cheapHistory).1.config.reserveDenom ∧
    (run Demo.s1 cheapHistory).1.reserveUnits = some [("uion", 99899899899899899)] ∧
    (run Demo.s1 cheapHistory).1.totalSupply = 9990 ∧
    99899899899899899 * Nat.gcd 9990 1000000000000000000 < 1000000000000000000 ∧ NoGifts cheapEnv := by
  refine ⟨Demo.s1_reachable.run _, by decide +kernel, by decide +kernel, by decide +kernel, by decide +kernel,
    by decide +kernel, by decide +kernel, ?_⟩
  intro _ out n h _
  cases h
  exact Nat.succ_pos _

end Ibcx.Props
