import Verif.Props.DropAnswers
import Verif.Props.Paging
import Mathlib.Data.List.Sort
/-!
# C125: the listings of the airdrop contract are the history
-/

namespace Ibcx.Props
open Ibcx Ibcx.Airdrop Ibcx.Spec Ibcx.Iface

private theorem sum_prefix (n : Nat) : ∀ m : KV (Nat × String) Nat,
    (((m.filter (fun e => e.1.1 = n)).map (fun e => (e.1.2, e.2))).map (·.2)).sum =
      (m.map (fun e => if e.1.1 = n then e.2 else 0)).sum := by
  intro m
  induction m with
  | nil => rfl
  | cons e m ih =>
    by_cases h : e.1.1 = n
    · rw [List.filter_cons_of_pos (by simpa using h)]
      simp only [List.map_cons, List.sum_cons, if_pos h]
      rw [← ih]
    · rw [List.filter_cons_of_neg (by simpa using h)]
      simp only [List.map_cons, List.sum_cons, if_neg h]
      rw [ih, Nat.zero_add]

private theorem drop_get {c : Crypto} {calls : List Call} {n : Nat} {a : Drop} :
    (run c initial calls).1.drops.get n = some a ↔ getAirdrop (run c initial calls).1 (.id n) = .ok (n, a) := by
  simp only [getAirdrop, loadAirdrop, bind_eq_ok, KV.load_eq_ok, Except.ok.injEq, Prod.mk.injEq]
  constructor
  · intro h
    exact ⟨_, rfl, _, h, rfl, rfl⟩
  · rintro ⟨_, rfl, b, h, _, rfl⟩
    exact h

/-- **C125 (`ListClaims`).** For an airdrop that was registered, following the pages of the list of its claims, with any
allowed limit and in either order, yields exactly the claims that were paid, every one once, and the listed amounts add up
to what the claimants received. -/
theorem C125_claims {c : Crypto} {calls : List Call} {n : Nat} {call : Call} {p : RegisterPayload}
    (hreg : RegisteredBy c calls n call p) {limit : Option Nat} {order : Option RangeOrder}
    (h1 : 1 ≤ limit.getD 10) (h2 : limit.getD 10 ≤ 30) :
    ∃ pages es, follow (fun st => listClaims (run c initial calls).1 (.id n) st limit order) (·.1) pages none = .ok es ∧
      (∀ k x, (k, x) ∈ es ↔ PaidOut c calls n k x) ∧ (es.map (·.1)).Nodup ∧
      (es.map (·.2)).sum = claimedBy c n initial calls := by
  obtain ⟨a, ha, _⟩ := registered_shown hreg
  have hr : Reachable c (run c initial calls).1 := ⟨calls, rfl⟩
  have hn := (drops_nodup c hr).2.2
  obtain ⟨es, g1, g2, g3⟩ := C54_following_pages_lists_everything strLt_strict (prefix_nodup hn n) (order := order) h1 h2
    (Nat.lt_succ_self _)
  have e : (fun st => listClaims (run c initial calls).1 (.id n) st limit order) = fun st =>
      page strLt (((run c initial calls).1.claims.filter (fun e => e.1.1 = n)).map (fun e => (e.1.2, e.2))) st limit
        order := by
    funext st
    have : loadAirdrop (run c initial calls).1 (.id n) = .ok (n, a) := loadAirdrop_eq_ok.2 ⟨rfl, ha⟩
    simp only [listClaims, this]
    rfl
  refine ⟨_, es, e ▸ g1, fun k x => ?_, ?_, ?_⟩
  · rw [g2.mem_iff, ← (C123_get_claim c calls n k).1 x]
    simp only [getClaim, loadAirdrop, bind_eq_ok, KV.load_eq_ok, Except.ok.injEq]
    constructor
    · intro h
      obtain ⟨e, k1, k2⟩ := List.mem_map.1 h
      obtain ⟨k3, k4⟩ := List.mem_filter.1 k1
      have k4 : e.1.1 = n := by simpa using k4
      cases k2
      refine ⟨_, ⟨_, rfl, _, ha, rfl⟩, ?_⟩
      apply KV.get_of_mem hn
      rw [← k4]
      exact k3
    · rintro ⟨_, ⟨_, rfl, _, _, rfl⟩, h⟩
      exact List.mem_map.2 ⟨((_, k), x), List.mem_filter.2 ⟨KV.mem_of_get h, by simp⟩, rfl⟩
  · exact (g2.map _).nodup_iff.2 (prefix_nodup hn n)
  · rw [(g2.map (·.2)).sum_eq, sum_prefix, ← ((C31_never_pays_more_than_funded c calls n).2 a ha).2]
    exact hr.inv.recorded n a ha

/-- Alice's and Bob's claims of the examples, one on a page, backwards. -/
example : let calls := [Demo.reg, Demo.fund, { Demo.fund with info := ⟨"carol", [⟨"uosmo", 20⟩]⟩ }, Demo.claimBob,
      Demo.claimAlice]
    follow (fun st => listClaims (run Demo.crypto initial calls).1 (.id 0) st (some 1) (some .desc)) (·.1) 4 none =
      .ok [("bob", 40), ("alice", 60)] ∧ claimedBy Demo.crypto 0 initial calls = 100 := by
  decide +kernel

/-- **C125 (`ListAirdrops`).** Following the pages of the list of airdrops yields them in the order of their registration:
entry `k` is the airdrop registered after `k` others, as `GetAirdrop` shows it. -/
theorem C125_airdrops (c : Crypto) (calls : List Call) {limit : Option Nat}
    (h1 : 1 ≤ limit.getD 10) (h2 : limit.getD 10 ≤ 30) :
    ∃ pages es, follow (fun st => listById (run c initial calls).1 st limit none) (·.1) pages none = .ok es ∧
      es.map (·.1) = List.range (registrations c initial calls) ∧
      ∀ k a, (k, a) ∈ es → getAirdrop (run c initial calls).1 (.id k) = .ok (k, a) := by
  have hr : Reachable c (run c initial calls).1 := ⟨calls, rfl⟩
  obtain ⟨⟨m, es, g1, g2, g3⟩, _⟩ := C54_airdrops hr (limit := limit) (order := none) h1 h2
  have hl : (run c initial calls).1.latest = registrations c initial calls := by
    have := latest_run c calls initial
    rw [show initial.latest = 0 from rfl, Nat.zero_add] at this
    exact this
  refine ⟨m, es, g1, ?_, fun k a h => drop_get.1 ((g2 k a).1 h)⟩
  have hs : (es.map (·.1)).Pairwise (· < ·) := by
    rw [List.pairwise_map]
    refine g3.imp fun {a b} h => ?_
    simpa [before, natLt] using h
  refine List.Perm.eq_of_pairwise (le := (· < ·)) (fun a b _ _ h h' => absurd h (by omega)) hs List.pairwise_lt_range ?_
  refine (List.perm_ext_iff_of_nodup (hs.imp fun h => Nat.ne_of_lt h) List.nodup_range).2 fun k => ?_
  rw [List.mem_range, ← hl]
  have hi := hr.inv.ids k
  constructor
  · intro h
    obtain ⟨e, he, rfl⟩ := List.mem_map.1 h
    have := (g2 e.1 e.2).1 he
    rcases Nat.lt_or_ge e.1 (run c initial calls).1.latest with h | h
    · exact h
    · rw [hi.2 h] at this
      cases this
  · intro h
    cases hg : (run c initial calls).1.drops.get k with
    | none => exact absurd (hi.1 hg) (by omega)
    | some a => exact List.mem_map.2 ⟨(k, a), (g2 k a).2 hg, rfl⟩

/-- Three registrations, of which the second is refused because the label is taken. -/
example : let calls := [Demo.reg, Demo.reg, { Demo.reg with info := ⟨"dave", Demo.reg.info.funds⟩ }]
    registrations Demo.crypto initial calls = 2 ∧
    (follow (fun st => listById (run Demo.crypto initial calls).1 st (some 1) none) (·.1) 4 none).map
      (List.map fun e => (e.1, e.2.creator)) = .ok [(0, "carol"), (1, "dave")] := by
  decide +kernel

/-- **C125 (`ListAirdrops` of a creator).** The list for an address names exactly the airdrops that this address registered. -/
theorem C125_airdrops_of (c : Crypto) (calls : List Call) (env : Env) {creator : Addr} (hv : env.validAddr creator = true)
    {limit : Option Nat} {order : Option RangeOrder} (h1 : 1 ≤ limit.getD 10) (h2 : limit.getD 10 ≤ 30) :
    ∃ pages es,
      follow (fun st => listByCreator (run c initial calls).1 env creator st limit order) (·.1) pages none = .ok es ∧
      (es.map (·.1)).Nodup ∧
      ∀ n, n ∈ es.map (·.1) ↔ ∃ call p, RegisteredBy c calls n call p ∧ call.info.sender = creator := by
  have hr : Reachable c (run c initial calls).1 := ⟨calls, rfl⟩
  obtain ⟨_, _, hc⟩ := C54_airdrops hr (limit := limit) (order := order) h1 h2
  obtain ⟨m, es, g1, g2, g3⟩ := hc env creator hv
  refine ⟨m, es, g1, ?_, fun n => ?_⟩
  · rw [List.Nodup, List.pairwise_map]
    refine g3.imp fun {a b} h => ?_
    intro e
    rw [e] at h
    generalize order.getD .asc = o at h
    cases o <;> simp [before, natLt] at h
  · constructor
    · intro h
      obtain ⟨e, he, rfl⟩ := List.mem_map.1 h
      obtain ⟨k1, k2⟩ := (g2 e.1 e.2).1 he
      obtain ⟨call, p, k3, k4⟩ := ((shown c calls).1 _ _ k1).1
      exact ⟨call, p, k3, k4.1 ▸ k2⟩
    · rintro ⟨call, p, k1, k2⟩
      obtain ⟨a, k3, k4⟩ := registered_shown k1
      exact List.mem_map.2 ⟨(n, a), (g2 n a).2 ⟨k3, k4.1.trans k2⟩, rfl⟩

/-- The one airdrop that Dave registered. -/
example : let calls := [Demo.reg, Demo.reg, { Demo.reg with info := ⟨"dave", Demo.reg.info.funds⟩ }]
    (follow (fun st => listByCreator (run Demo.crypto initial calls).1 Demo.reg.env "dave" st none none) (·.1) 4 none).map
      (List.map fun e => (e.1, e.2.creator)) = .ok [(1, "dave")] ∧ Demo.reg.env.validAddr "dave" = true := by
  decide +kernel

end Ibcx.Props
