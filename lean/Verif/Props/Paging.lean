import Verif.Iface.PageLemmas
import Verif.Props.Swaps
import Verif.Props.AirdropMore
/-!
# Paged listings (C54)
-/

namespace Ibcx.Props
open Ibcx Ibcx.Iface Ibcx.Spec

variable {K V : Type} {lt : K → K → Bool}

/-- **C54 (bounds).** A page holds at most the requested number of entries, 10 if none is requested, and requests
above 30 are rejected; all others are answered. -/
theorem C54_page_size (m : KV K V) (start : Option K) (limit : Option Nat) (order : Option RangeOrder) :
    (∀ es, page lt m start limit order = .ok es → es.length ≤ limit.getD 10) ∧
    (30 < limit.getD 10 → page lt m start limit order = .error .generic) ∧
    (limit.getD 10 ≤ 30 → ∃ es, page lt m start limit order = .ok es) := by
  refine ⟨?_, ?_, ?_⟩
  · intro es h
    obtain ⟨_, rfl⟩ := page_eq_ok.1 h
    simp only [List.length_take]
    omega
  · intro h
    cases limit with
    | none => simp at h
    | some l =>
      have : ¬ l ≤ MAX_LIMIT := by simp only [MAX_LIMIT]; simpa using h
      simp [page, rangeOption, getAndCheckLimit, this]
  · intro h
    exact ⟨_, page_eq_ok.2 ⟨h, rfl⟩⟩

/-- Seven entries: ten are allowed by default, two are asked for, 31 are refused. -/
example : let m : KV Nat String := [(5, "e"), (1, "a"), (4, "d"), (7, "g"), (2, "b"), (6, "f"), (3, "c")]
    (page natLt m none none none).map (·.length) = .ok 7 ∧
    page natLt m none (some 2) none = .ok [(1, "a"), (2, "b")] ∧
    page natLt m none (some 31) none = .error .generic := by
  decide +kernel

/-- **C54 (content).** Every entry of a page is an entry of the store, comes after the cursor, and the entries are in
strictly increasing (descending listing: decreasing) key order. -/
theorem C54_page_content (hs : Strict lt) {m : KV K V} (hn : (m.map (·.1)).Nodup) {start : Option K}
    {limit : Option Nat} {order : Option RangeOrder} {es : List (K × V)} (h : page lt m start limit order = .ok es) :
    (∀ e ∈ es, e ∈ m ∧ ∀ k, start = some k → before lt (order.getD .asc) k e.1) ∧
    es.Pairwise (fun a b => before lt (order.getD .asc) a.1 b.1) := by
  obtain ⟨_, rfl⟩ := page_eq_ok.1 h
  constructor
  · intro e he
    have he := List.mem_filter.1 (List.mem_of_mem_take he)
    refine ⟨(listing_perm m _).mem_iff.1 he.1, ?_⟩
    rintro k rfl
    have h2 := he.2
    cases ho : order.getD .asc <;> rw [ho] at h2 <;> exact h2
  · exact ((listing_sorted hs hn _).sublist List.filter_sublist).sublist (List.take_sublist _ _)

/-- The page after 3, and backwards the page before 3. -/
example : let m : KV Nat String := [(5, "e"), (1, "a"), (4, "d"), (7, "g"), (2, "b"), (6, "f"), (3, "c")]
    (m.map (·.1)).Nodup ∧
    page natLt m (some 3) (some 2) none = .ok [(4, "d"), (5, "e")] ∧
    page natLt m (some 3) (some 2) (some .desc) = .ok [(2, "b"), (1, "a")] := by
  decide +kernel

private theorem follow_listing (hs : Strict lt) {m : KV K V} (hn : (m.map (·.1)).Nodup) {limit : Option Nat}
    {order : Option RangeOrder} (h1 : 1 ≤ limit.getD 10) (h2 : limit.getD 10 ≤ 30) (n : Nat) :
    ∀ (done rest : List (K × V)) (start : Option K), listing lt m (order.getD .asc) = done ++ rest →
      (start = done.getLast?.map (·.1)) → rest.length < n →
      follow (fun st => page lt m st limit order) (·.1) n start = .ok rest := by
  induction n with
  | zero => intro _ _ _ _ _ h; omega
  | succ n ih =>
    intro done rest start hl hst hlen
    have hsorted := listing_sorted hs hn (order.getD .asc)
    have hfil : (listing lt m (order.getD .asc)).filter (fun e => after lt (order.getD .asc) start e.1) = rest := by
      rcases List.eq_nil_or_concat done with rfl | ⟨ds, d, rfl⟩
      · simp only [List.getLast?_nil, Option.map_none] at hst
        subst hst
        simpa [after] using hl
      · simp only [List.concat_eq_append, List.getLast?_append, List.getLast?_singleton, Option.some_or,
          Option.map_some] at hst
        subst hst
        rw [hl] at hsorted ⊢
        simp only [List.concat_eq_append, List.append_assoc, List.singleton_append] at hsorted ⊢
        cases ho : order.getD .asc
        · rw [ho] at hsorted
          refine filter_after (R := fun a b : K × V => before lt .asc a.1 b.1) (f := fun a b => lt a.1 b.1)
            (fun _ _ => Iff.rfl) ?_ ?_ hsorted
          · intro a; simp [before, hs.irrefl]
          · intro a b c; exact hs.trans _ _ _
        · rw [ho] at hsorted
          refine filter_after (R := fun a b : K × V => before lt .desc a.1 b.1) (f := fun a b => lt b.1 a.1)
            (fun _ _ => Iff.rfl) ?_ ?_ hsorted
          · intro a; simp [before, hs.irrefl]
          · intro a b c x y; exact hs.trans _ _ _ y x
    have hp : page lt m start limit order = .ok (rest.take (limit.getD 10)) := page_eq_ok.2 ⟨h2, by rw [hfil]⟩
    simp only [follow, bind_eq_ok]
    refine ⟨_, hp, ?_⟩
    rcases List.eq_nil_or_concat (rest.take (limit.getD 10)) with he | ⟨ps, e, he⟩
    · have hr : rest = [] := by
        rcases List.take_eq_nil_iff.1 he with h | h
        · omega
        · exact h
      subst hr
      simp
    · rw [he]
      simp only [List.concat_eq_append, List.getLast?_append, List.getLast?_singleton, Option.some_or, bind_eq_ok,
        Except.ok.injEq]
      have hsplit : rest = (ps ++ [e]) ++ rest.drop (limit.getD 10) := by
        rw [← List.concat_eq_append, ← he, List.take_append_drop]
      have hdrop : (rest.drop (limit.getD 10)).length < n := by
        have := congrArg List.length hsplit
        simp only [List.length_append, List.length_singleton] at this
        omega
      refine ⟨rest.drop (limit.getD 10), ih (done ++ (ps ++ [e])) _ _ ?_ ?_ hdrop, ?_⟩
      · rw [hl, List.append_assoc, ← hsplit]
      · simp
      · exact hsplit.symm

/-- **C54 (completeness).** Following the pages of a listing, with any admissible positive limit and in either order,
returns every entry of the store exactly once, in key order. -/
theorem C54_following_pages_lists_everything (hs : Strict lt) {m : KV K V} (hn : (m.map (·.1)).Nodup)
    {limit : Option Nat} {order : Option RangeOrder} (h1 : 1 ≤ limit.getD 10) (h2 : limit.getD 10 ≤ 30) {n : Nat}
    (hlen : m.length < n) :
    ∃ es, follow (fun st => page lt m st limit order) (·.1) n none = .ok es ∧ es.Perm m ∧
      es.Pairwise (fun a b => before lt (order.getD .asc) a.1 b.1) := by
  refine ⟨listing lt m (order.getD .asc), ?_, listing_perm m _, listing_sorted hs hn _⟩
  refine follow_listing hs hn h1 h2 n [] _ none (by simp) rfl ?_
  rw [(listing_perm m _).length_eq]
  exact hlen

/-- Seven entries listed in pages of three, backwards. -/
example : follow (fun st => page natLt [(5, "e"), (1, "a"), (4, "d"), (7, "g"), (2, "b"), (6, "f"), (3, "c")] st
    (some 3) (some .desc)) (·.1) 8 none =
    .ok [(7, "g"), (6, "f"), (5, "e"), (4, "d"), (3, "c"), (2, "b"), (1, "a")] := by
  decide +kernel

/-! ### The listings of the contracts -/

/-- The same, in terms of lookups. -/
private theorem follow_get [DecidableEq K] (hs : Strict lt) {m : KV K V} (hn : (m.map (·.1)).Nodup)
    {limit : Option Nat} {order : Option RangeOrder} (h1 : 1 ≤ limit.getD 10) (h2 : limit.getD 10 ≤ 30) {n : Nat}
    (hlen : m.length < n) :
    ∃ es, follow (fun st => page lt m st limit order) (·.1) n none = .ok es ∧
      (∀ k v, (k, v) ∈ es ↔ m.get k = some v) ∧
      es.Pairwise (fun a b => before lt (order.getD .asc) a.1 b.1) := by
  obtain ⟨es, g1, g2, g3⟩ := C54_following_pages_lists_everything hs hn h1 h2 hlen
  exact ⟨es, g1, fun k v => by rw [g2.mem_iff]; exact ⟨KV.get_of_mem hn, KV.mem_of_get⟩, g3⟩

theorem prefix_nodup {A B V : Type} [DecidableEq A] {m : KV (A × B) V} (hn : (m.map (·.1)).Nodup) (a : A) :
    (((m.filter (fun e => e.1.1 = a)).map (fun e => (e.1.2, e.2))).map (·.1)).Nodup := by
  have hs := (List.filter_sublist (l := m) (p := fun e => decide (e.1.1 = a))).map (·.1)
  have hn' := hs.nodup hn
  have : (((m.filter (fun e => e.1.1 = a)).map (fun e => (e.1.2, e.2))).map (·.1)) =
      ((m.filter (fun e => decide (e.1.1 = a))).map (·.1)).map (·.2) := by
    rw [List.map_map, List.map_map]; rfl
  rw [this]
  refine List.Nodup.map_on ?_ hn'
  intro x hx y hy e
  obtain ⟨e1, h1, rfl⟩ := List.mem_map.1 hx
  obtain ⟨e2, h2, rfl⟩ := List.mem_map.1 hy
  have g1 : e1.1.1 = a := by simpa using (List.mem_filter.1 h1).2
  have g2 : e2.1.1 = a := by simpa using (List.mem_filter.1 h2).2
  exact Prod.ext (g1.trans g2.symm) e

private theorem prefix_get {A B V : Type} [DecidableEq A] [DecidableEq B] {m : KV (A × B) V}
    (hn : (m.map (·.1)).Nodup) (a : A) (b : B) (v : V) :
    KV.get ((m.filter (fun e => e.1.1 = a)).map (fun e => (e.1.2, e.2))) b = some v ↔ m.get (a, b) = some v := by
  constructor
  · intro h
    have := KV.mem_of_get h
    obtain ⟨e, h1, h2⟩ := List.mem_map.1 this
    obtain ⟨h3, h4⟩ := List.mem_filter.1 h1
    have h4 : e.1.1 = a := by simpa using h4
    cases h2
    apply KV.get_of_mem hn
    rw [← h4]
    exact h3
  · intro h
    apply KV.get_of_mem (prefix_nodup hn a)
    exact List.mem_map.2 ⟨((a, b), v), List.mem_filter.2 ⟨KV.mem_of_get h, by simp⟩, rfl⟩

private theorem filter_get {A V : Type} [DecidableEq A] {m : KV A V} (hn : (m.map (·.1)).Nodup) (f : A × V → Bool)
    (a : A) (v : V) : KV.get (m.filter f) a = some v ↔ m.get a = some v ∧ f (a, v) = true := by
  have hn' : ((m.filter f).map (·.1)).Nodup := ((List.filter_sublist (l := m) (p := f)).map _).nodup hn
  constructor
  · intro h
    obtain ⟨h1, h2⟩ := List.mem_filter.1 (KV.mem_of_get h)
    exact ⟨KV.get_of_mem hn h1, h2⟩
  · rintro ⟨h1, h2⟩
    exact KV.get_of_mem hn' (List.mem_filter.2 ⟨KV.mem_of_get h1, h2⟩)

theorem infos_nodup {s : Core.State} (hr : Core.Reachable s) : (s.tradeInfos.map (·.1)).Nodup := by
  obtain ⟨s0, cs, h0, rfl⟩ := hr
  have hf : (s0.tradeInfos.map (·.1)).Nodup := by
    obtain ⟨env, msg, s1, ms, d, ms', h1, h2⟩ := h0
    obtain ⟨_, _, _, _, _, _, rfl, _⟩ := Core.instantiate_eq_ok.1 h1
    obtain ⟨_, d', _, rfl, _⟩ := Core.reply_eq_ok.1 h2
    simp
  clear h0
  induction cs generalizing s0 with
  | nil => exact hf
  | cons c cs ih =>
    suffices hnext : ((Core.step s0 c).1.tradeInfos.map (·.1)).Nodup from ih _ hnext
    unfold Core.step
    cases hx : Core.execute s0 c.env c.info c.msg with
    | error e => exact hf
    | ok o =>
      obtain ⟨s', ms⟩ := o
      have hk := infos_kept hx
      simp only
      split at hk
      · obtain ⟨r, rs', _, e⟩ := hk
        rw [e]; exact KV.nodup_set hf
      · rename_i m heq _
        rw [heq] at hx
        rcases trade_pair hx with ⟨_, e, _⟩ | ⟨k, t, _, _, _, e⟩
        · rw [e]; exact hf
        · rw [e]; exact KV.nodup_set hf
      · rw [hk]; exact hf

/-- **C54 (trade routes).** In every reachable state of the core contract, following the pages of `ListTradeInfo` for
an input denom returns exactly the stored routes of that denom, each once, in the order of the output denoms. -/
theorem C54_trade_infos {s : Core.State} (hr : Core.Reachable s) (denomIn : Denom) {limit : Option Nat}
    {order : Option RangeOrder} (h1 : 1 ≤ limit.getD 10) (h2 : limit.getD 10 ≤ 30) :
    ∃ n es, follow (fun st => listTradeInfo s denomIn st limit order) (·.1) n none = .ok es ∧
      (∀ d t, (d, t) ∈ es ↔ s.tradeInfos.get (denomIn, d) = some t) ∧
      es.Pairwise (fun a b => before strLt (order.getD .asc) a.1 b.1) := by
  obtain ⟨es, g1, g2, g3⟩ := follow_get strLt_strict (prefix_nodup (infos_nodup hr) denomIn) (order := order) h1 h2
    (Nat.lt_succ_self _)
  exact ⟨_, es, g1, fun d t => (g2 d t).trans (prefix_get (infos_nodup hr) denomIn d t), g3⟩

/-- Two routes from uosmo, one per page; the route from uatom is not listed. -/
example : (follow (fun st => listTradeInfo (Core.run Demo.s1
      [⟨Demo.env 1000, ⟨"gov", []⟩, .gov (.updateTradeInfo "uosmo" [⟨2, "uion"⟩] 60 1000)⟩,
       ⟨Demo.env 1000, ⟨"gov", []⟩, .gov (.updateTradeInfo "uatom" [⟨1, "uosmo"⟩] 60 1000)⟩,
       ⟨Demo.env 1000, ⟨"gov", []⟩, .gov (.updateTradeInfo "uosmo" [⟨3, "ujuno"⟩] 60 1000)⟩]).1 "uosmo" st (some 1) none)
        (·.1) 4 none).map (fun es => es.map (·.1)) = .ok ["uion", "ujuno"] := by
  decide +kernel

open Ibcx.Airdrop in
theorem drops_nodup (c : Crypto) {s : Airdrop.State} (hr : Airdrop.Reachable c s) :
    (s.drops.map (·.1)).Nodup ∧ (s.labels.map (·.1)).Nodup ∧ (s.claims.map (·.1)).Nodup := by
  obtain ⟨calls, rfl⟩ := hr
  have hf : (initial.drops.map (·.1)).Nodup ∧ (initial.labels.map (·.1)).Nodup ∧
      (initial.claims.map (·.1)).Nodup := by simp [initial]
  revert hf
  generalize initial = s
  induction calls generalizing s with
  | nil => exact fun h => h
  | cons call calls ih =>
    intro hf
    suffices hnext : ((step c s call).1.drops.map (·.1)).Nodup ∧ ((step c s call).1.labels.map (·.1)).Nodup ∧
        ((step c s call).1.claims.map (·.1)).Nodup from ih _ hnext
    obtain ⟨f1, f2, f3⟩ := hf
    rcases step_cases c s call with ⟨e, _⟩ | ⟨s', ms, e, _, h⟩
    · rw [e]; exact ⟨f1, f2, f3⟩
    · rw [e]
      generalize call.msg = msg at h
      cases h with
      | register p a new free max =>
        refine ⟨KV.nodup_set f1, ?_, f3⟩
        cases a.label with
        | none => exact f2
        | some l => exact KV.nodup_set f2
      | fund id m a extra ht ha hc ho hf hx max => exact ⟨KV.nodup_set f1, f2, f3⟩
      | close id m a ht ha hc ho hle => exact ⟨KV.nodup_set f1, f2, f3⟩
      | claim p m a hv ht ha ho hk hp max hle => exact ⟨KV.nodup_set f1, f2, KV.nodup_set f3⟩

open Ibcx.Airdrop in
/-- A state with three airdrops, two of them labelled. -/
def listed : Airdrop.State :=
  (run Demo.crypto initial
    [ Demo.reg,
      ⟨Demo.env 11, ⟨"bert", [⟨"uosmo", 5⟩]⟩, .register (.openDrop Demo.root "uosmo" (some "a/b"))⟩,
      ⟨Demo.env 12, ⟨"carol", [⟨"uosmo", 7⟩]⟩, .register (.openDrop Demo.root "uosmo" none)⟩ ]).1

open Ibcx.Airdrop in
/-- **C54 (airdrops).** In every reachable state of the airdrop contract, following the pages of `ListAirdrops` by id,
by type or by creator returns exactly the airdrops (of that type, of that creator), each once, in order of their ids. -/
theorem C54_airdrops {c : Crypto} {s : Airdrop.State} (hr : Airdrop.Reachable c s) {limit : Option Nat}
    {order : Option RangeOrder} (h1 : 1 ≤ limit.getD 10) (h2 : limit.getD 10 ≤ 30) :
    (∃ n es, follow (fun st => listById s st limit order) (·.1) n none = .ok es ∧
      (∀ k a, (k, a) ∈ es ↔ s.drops.get k = some a) ∧
      es.Pairwise (fun a b => before natLt (order.getD .asc) a.1 b.1)) ∧
    (∀ typ, ∃ n es, follow (fun st => listByType s typ st limit order) (·.1) n none = .ok es ∧
      (∀ k a, (k, a) ∈ es ↔ s.drops.get k = some a ∧ a.typeOf = typ) ∧
      es.Pairwise (fun a b => before natLt (order.getD .asc) a.1 b.1)) ∧
    (∀ env creator, env.validAddr creator = true →
      ∃ n es, follow (fun st => listByCreator s env creator st limit order) (·.1) n none = .ok es ∧
      (∀ k a, (k, a) ∈ es ↔ s.drops.get k = some a ∧ a.creator = creator) ∧
      es.Pairwise (fun a b => before natLt (order.getD .asc) a.1 b.1)) := by
  have hn := (drops_nodup c hr).1
  refine ⟨?_, ?_, ?_⟩
  · obtain ⟨es, g1, g2, g3⟩ := follow_get natLt_strict hn (order := order) h1 h2 (Nat.lt_succ_self _)
    exact ⟨_, es, g1, g2, g3⟩
  · intro typ
    obtain ⟨es, g1, g2, g3⟩ := follow_get natLt_strict (m := s.drops.filter (fun e => e.2.typeOf = typ))
      (((List.filter_sublist).map _).nodup hn) (order := order) h1 h2 (Nat.lt_succ_self _)
    exact ⟨_, es, g1, fun k a => by rw [g2, filter_get hn]; simp, g3⟩
  · intro env creator hv
    obtain ⟨es, g1, g2, g3⟩ := follow_get natLt_strict (m := s.drops.filter (fun e => e.2.creator = creator))
      (((List.filter_sublist).map _).nodup hn) (order := order) h1 h2 (Nat.lt_succ_self _)
    have e : (fun st => listByCreator s env creator st limit order) =
        fun st => page natLt (s.drops.filter (fun e => e.2.creator = creator)) st limit order := by
      funext st
      have : validate env creator = .ok creator := by simp [validate, hv]
      simp only [listByCreator, this, page, Bind.bind, Except.bind]
      cases rangeOption (K := Nat) st limit order <;> rfl
    exact ⟨_, es, e ▸ g1, fun k a => by rw [g2, filter_get hn]; simp, g3⟩

/-- Three airdrops, one per page, by number and by creator. -/
example : Airdrop.Reachable Airdrop.Demo.crypto listed ∧
    (follow (fun st => Airdrop.listById listed st (some 1) none) (·.1) 4 none).map (fun es => es.map (·.1)) = .ok [0, 1, 2] ∧
    (follow (fun st => Airdrop.listByCreator listed (Airdrop.Demo.env 13) "carol" st (some 1) (some .desc)) (·.1) 4 none).map
      (fun es => es.map (·.1)) = .ok [2, 0] :=
  ⟨⟨_, rfl⟩, by decide +kernel, by decide +kernel⟩

open Ibcx.Airdrop in
/-- **C54 (claims).** Following the pages of `ListClaims` for an airdrop returns exactly its recorded claims, each
once, in the order of the claim keys. -/
theorem C54_claims {c : Crypto} {s : Airdrop.State} (hr : Airdrop.Reachable c s) {id : DropId} {m : Nat} {a : Drop}
    (ht : target s id = some m) (ha : s.drops.get m = some a) {limit : Option Nat}
    {order : Option RangeOrder} (h1 : 1 ≤ limit.getD 10) (h2 : limit.getD 10 ≤ 30) :
    ∃ n es, follow (fun st => listClaims s id st limit order) (·.1) n none = .ok es ∧
      (∀ k x, (k, x) ∈ es ↔ s.claims.get (m, k) = some x) ∧
      es.Pairwise (fun a b => before strLt (order.getD .asc) a.1 b.1) := by
  have hn := (drops_nodup c hr).2.2
  obtain ⟨es, g1, g2, g3⟩ := follow_get strLt_strict (prefix_nodup hn m) (order := order) h1 h2
    (Nat.lt_succ_self _)
  have e : (fun st => listClaims s id st limit order) = fun st =>
      page strLt ((s.claims.filter (fun e => e.1.1 = m)).map (fun e => (e.1.2, e.2))) st limit order := by
    funext st
    have : loadAirdrop s id = .ok (m, a) := loadAirdrop_eq_ok.2 ⟨ht, ha⟩
    simp only [listClaims, this]
    rfl
  exact ⟨_, es, e ▸ g1, fun d t => (g2 d t).trans (prefix_get hn m d t), g3⟩

/-- Alice's and Bob's claims, one per page. -/
example : (follow (fun st => Airdrop.listClaims (Airdrop.run Airdrop.Demo.crypto Airdrop.initial [Airdrop.Demo.reg,
      Airdrop.Demo.fund, { Airdrop.Demo.fund with info := ⟨"carol", [⟨"uosmo", 20⟩]⟩ }, Airdrop.Demo.claimBob,
      Airdrop.Demo.claimAlice]).1 (.id 0) st (some 1) none) (·.1) 4 none) = .ok [("alice", 60), ("bob", 40)] := by
  decide +kernel

/-- Following pages of converted entries. -/
private theorem follow_map {K E F : Type} {ask : Option K → Res (List E)} {ask' : Option K → Res (List F)} {f : E → F}
    {key : E → K} {key' : F → K} (P : E → Prop)
    (ha : ∀ st es, ask st = .ok es → (∀ e ∈ es, P e) ∧ ask' st = .ok (es.map f))
    (hk : ∀ e, P e → key' (f e) = key e) (n : Nat) (st : Option K) {es : List E}
    (h : follow ask key n st = .ok es) : follow ask' key' n st = .ok (es.map f) := by
  induction n generalizing st es with
  | zero => cases h; rfl
  | succ n ih =>
    simp only [follow, bind_eq_ok] at h
    obtain ⟨p, h1, h2⟩ := h
    obtain ⟨g1, g2⟩ := ha st p h1
    simp only [follow, g2, bind_eq_ok, Except.ok.injEq, exists_eq_left', List.getLast?_map]
    cases hl : p.getLast? with
    | none => rw [hl] at h2; cases h2; rfl
    | some e =>
      rw [hl] at h2
      simp only [bind_eq_ok, Except.ok.injEq] at h2
      obtain ⟨rest, h3, rfl⟩ := h2
      simp only [Option.map_some, bind_eq_ok, Except.ok.injEq]
      refine ⟨rest.map f, ?_, by simp⟩
      rw [hk e (g1 e (List.mem_of_getLast? hl))]
      exact ih _ h3

theorem page_sub {lt : K → K → Bool} {m : KV K V} {st : Option K} {limit : Option Nat}
    {order : Option RangeOrder} {es : List (K × V)} (h : page lt m st limit order = .ok es) : ∀ e ∈ es, e ∈ m := by
  intro e he
  obtain ⟨_, rfl⟩ := page_eq_ok.1 h
  exact (listing_perm m _).mem_iff.1 (List.mem_filter.1 (List.mem_of_mem_take he)).1

/-- The label with which a listed label continues (the client glues creator and name together again). -/
def labelCursor (r : Airdrop.LabelResp) : String := r.creator ++ "/" ++ r.label

private theorem split_head : ∀ cs, '/' ∉ (Airdrop.splitSlash cs).headD [] := by
  intro cs
  induction cs with
  | nil => simp [Airdrop.splitSlash]
  | cons x cs ih =>
    simp only [Airdrop.splitSlash]
    split
    · simp
    · rename_i hx
      cases hs : Airdrop.splitSlash cs with
      | nil => simpa using Ne.symm hx
      | cons p ps => rw [hs] at ih; simp at ih ⊢; exact ⟨Ne.symm hx, ih⟩

private theorem split_two (cs ds : List Char) : ∃ p q ps, Airdrop.splitSlash (cs ++ '/' :: ds) = p :: q :: ps := by
  induction cs with
  | nil =>
    obtain ⟨_, h⟩ := join_split ds
    cases hs : Airdrop.splitSlash ds with
    | nil => exact absurd hs h
    | cons q ps => exact ⟨[], q, ps, by simp [Airdrop.splitSlash, hs]⟩
  | cons x cs ih =>
    obtain ⟨p, q, ps, h⟩ := ih
    by_cases hx : x = '/'
    · exact ⟨[], p, q :: ps, by simp [Airdrop.splitSlash, hx, h]⟩
    · exact ⟨x :: p, q, ps, by simp [Airdrop.splitSlash, hx, h]⟩

private theorem labelResp_back {l : String} (n : Nat) {a b : String} (h : l = a ++ "/" ++ b) :
    labelCursor (Airdrop.labelResp l n) = l ∧ '/' ∉ (Airdrop.labelResp l n).creator.toList := by
  constructor
  · have hl : l.toList = a.toList ++ '/' :: b.toList := by rw [h]; simp [String.toList_append]
    obtain ⟨p, q, ps, hs⟩ := split_two a.toList b.toList
    rw [← hl] at hs
    have hj := (join_split l.toList).1
    apply String.toList_inj.1
    simp only [labelCursor, Airdrop.labelResp, hs, List.headD_cons, List.tail_cons, String.toList_append,
      String.toList_ofList]
    rw [hs] at hj
    rw [← hj]
    simp [Airdrop.joinSlash]
  · simpa [Airdrop.labelResp] using split_head l.toList

private theorem labelResp_of {r : Airdrop.LabelResp} (h : '/' ∉ r.creator.toList) :
    Airdrop.labelResp (r.creator ++ "/" ++ r.label) r.airdropId = r := by
  have h2 : (r.creator ++ "/" ++ r.label).toList = r.creator.toList ++ '/' :: r.label.toList := by
    simp [String.toList_append]
  simp only [Airdrop.labelResp, h2, split_owner _ _ h]
  simp [(join_split _).1]

open Ibcx.Airdrop in
private theorem label_shape {c : Crypto} {s : Airdrop.State} (hr : Airdrop.Reachable c s) {l : String} {n : Nat}
    (h : s.labels.get l = some n) : ∃ a b, l = a ++ "/" ++ b := by
  obtain ⟨a, h1, h2⟩ := hr.inv.labelTo l n h
  obtain ⟨x, h3⟩ := hr.inv.owned n a l h1 h2
  exact ⟨_, x, h3⟩

private theorem labelResp_id (l : String) (n : Nat) : (Airdrop.labelResp l n).airdropId = n := by
  simp only [Airdrop.labelResp]

attribute [local irreducible] Airdrop.labelResp in
open Ibcx.Airdrop in
/-- **C54 (labels).** Following the pages of `ListLabels` returns exactly the stored labels with their airdrops, each
once, in the order of the labels. -/
theorem C54_labels {c : Crypto} {s : Airdrop.State} (hr : Airdrop.Reachable c s) {limit : Option Nat}
    {order : Option RangeOrder} (h1 : 1 ≤ limit.getD 10) (h2 : limit.getD 10 ≤ 30) :
    ∃ n es, follow (fun st => listLabels s st limit order) labelCursor n none = .ok es ∧
      (∀ r, r ∈ es ↔ '/' ∉ r.creator.toList ∧ s.labels.get (r.creator ++ "/" ++ r.label) = some r.airdropId) ∧
      es.Pairwise (fun a b => before strLt (order.getD .asc) (labelCursor a) (labelCursor b)) := by
  have hn := (drops_nodup c hr).2.1
  obtain ⟨es, g1, g2, g3⟩ := follow_get strLt_strict hn (order := order) h1 h2 (Nat.lt_succ_self _)
  have hback : ∀ e : String × Nat, e ∈ s.labels → labelCursor (labelResp e.1 e.2) = e.1 ∧
      '/' ∉ (labelResp e.1 e.2).creator.toList := by
    intro e he
    obtain ⟨a, b, hab⟩ := label_shape hr (KV.get_of_mem hn he)
    exact labelResp_back _ hab
  have hfol : follow (fun st => listLabels s st limit order) labelCursor (List.length s.labels).succ none =
      .ok (es.map (fun e => labelResp e.1 e.2)) := by
    have hk : ∀ e : String × Nat, e ∈ s.labels → labelCursor ((fun e => labelResp e.1 e.2) e) = e.1 :=
      fun e he => (hback e he).1
    refine follow_map (ask := fun st => page strLt s.labels st limit order) (f := fun e => labelResp e.1 e.2)
      (key := (·.1)) (key' := labelCursor) (· ∈ s.labels) ?_ hk _ _ g1
    intro st ps hp
    refine ⟨page_sub hp, ?_⟩
    simp only [listLabels, hp, bind_eq_ok, Except.ok.injEq, exists_eq_left']
  refine ⟨_, es.map (fun e => labelResp e.1 e.2), hfol, ?_, ?_⟩
  · intro r
    constructor
    · intro hm
      obtain ⟨e, he, rfl⟩ := List.mem_map.1 hm
      have hg := (g2 e.1 e.2).1 he
      obtain ⟨b1, b2⟩ := hback e (KV.mem_of_get hg)
      refine ⟨b2, ?_⟩
      rw [labelResp_id, ← hg]
      exact congrArg _ b1
    · rintro ⟨b1, b2⟩
      exact List.mem_map.2 ⟨_, (g2 _ _).2 b2, labelResp_of b1⟩
  · rw [List.pairwise_map]
    refine g3.imp_of_mem ?_
    intro a b ha hb hab
    rw [(hback a (KV.mem_of_get ((g2 _ _).1 ha))).1, (hback b (KV.mem_of_get ((g2 _ _).1 hb))).1]
    exact hab

/-- The labels of the three airdrops, one per page. -/
example : Airdrop.Reachable Airdrop.Demo.crypto listed ∧
    (follow (fun st => Airdrop.listLabels listed st (some 1) none) labelCursor 4 none) =
      .ok [⟨"bert", "a/b", 1⟩, ⟨"carol", "gift", 0⟩] :=
  ⟨⟨_, rfl⟩, by decide +kernel⟩

open Ibcx.Airdrop in
private theorem loadLabelled_ok {s : Airdrop.State} (f : String × Nat → Nat × Drop) (es : List (String × Nat))
    (h : ∀ e ∈ es, (f e).1 = e.2 ∧ s.drops.get e.2 = some (f e).2) : loadLabelled s es = .ok (es.map f) := by
  induction es with
  | nil => rfl
  | cons e es ih =>
    obtain ⟨h1, h2⟩ := h e (by simp)
    have h3 := ih (fun e' he => h e' (by simp [he]))
    simp only [loadLabelled, KV.load, h2, h3, bind_eq_ok, Except.ok.injEq, exists_eq_left', List.map_cons]
    rw [← h1]

open Ibcx.Airdrop in
/-- **C54 (airdrops by label).** Following the pages of `ListAirdrops` by label returns exactly the airdrops that have
a label, each once, in the order of the labels. -/
theorem C54_airdrops_by_label {c : Crypto} {s : Airdrop.State} (hr : Airdrop.Reachable c s) {limit : Option Nat}
    {order : Option RangeOrder} (h1 : 1 ≤ limit.getD 10) (h2 : limit.getD 10 ≤ 30) :
    ∃ n es, follow (fun st => listByLabel s st limit order) (fun e => e.2.label.getD "") n none = .ok es ∧
      (∀ k a, (k, a) ∈ es ↔ s.drops.get k = some a ∧ a.label ≠ none) ∧
      es.Pairwise (fun a b => before strLt (order.getD .asc) (a.2.label.getD "") (b.2.label.getD "")) := by
  have hn := (drops_nodup c hr).2.1
  obtain ⟨es, g1, g2, g3⟩ := follow_get strLt_strict hn (order := order) h1 h2 (Nat.lt_succ_self _)
  have hex : ∀ e : String × Nat, ∃ d : Drop, e ∈ s.labels → s.drops.get e.2 = some d ∧ d.label = some e.1 := by
    intro e
    by_cases he : e ∈ s.labels
    · obtain ⟨d, hd⟩ := hr.inv.labelTo _ _ (KV.get_of_mem hn he)
      exact ⟨d, fun _ => hd⟩
    · exact ⟨⟨.openAirdrop, "", "", 0, 0, "", none, 0, none⟩, fun h => absurd h he⟩
  obtain ⟨d, hd⟩ := Classical.axiomOfChoice hex
  refine ⟨_, es.map (fun e => (e.2, d e)), follow_map (· ∈ s.labels) ?_ ?_ _ _ g1, ?_, ?_⟩
  · intro st ps hp
    refine ⟨page_sub hp, ?_⟩
    simp only [listByLabel, hp, bind_eq_ok, Except.ok.injEq, exists_eq_left']
    exact loadLabelled_ok _ _ (fun e he => ⟨rfl, (hd e (page_sub hp e he)).1⟩)
  · intro e he
    simp [(hd e he).2]
  · intro k a
    constructor
    · intro hm
      obtain ⟨e, he, h⟩ := List.mem_map.1 hm
      cases h
      obtain ⟨h3, h4⟩ := hd e (KV.mem_of_get ((g2 e.1 e.2).1 he))
      exact ⟨h3, by rw [h4]; simp⟩
    · rintro ⟨h3, h4⟩
      cases hl : a.label with
      | none => exact absurd hl h4
      | some l =>
        have h5 := hr.inv.labelOf k a l h3 hl
        refine List.mem_map.2 ⟨(l, k), (g2 l k).2 h5, ?_⟩
        have h6 := (hd (l, k) (KV.mem_of_get h5)).1
        rw [h3] at h6
        cases h6; rfl
  · rw [List.pairwise_map]
    refine g3.imp_of_mem ?_
    intro a b ha hb hab
    rw [(hd a (KV.mem_of_get ((g2 _ _).1 ha))).2, (hd b (KV.mem_of_get ((g2 _ _).1 hb))).2]
    exact hab

open Ibcx.Airdrop in
/-- The listings of three airdrops, one entry per page. -/
example :
    (follow (fun st => listById listed st (some 1) none) (·.1) 4 none).map (fun es => es.map (·.1)) = .ok [0, 1, 2] ∧
    (follow (fun st => listByCreator listed (Demo.env 13) "carol" st (some 1) (some .desc)) (·.1) 4 none).map
      (fun es => es.map (·.1)) = .ok [2, 0] ∧
    (follow (fun st => listLabels listed st (some 1) none) labelCursor 4 none) =
      .ok [⟨"bert", "a/b", 1⟩, ⟨"carol", "gift", 0⟩] ∧
    (follow (fun st => listByLabel listed st (some 1) (some .desc))
      (fun e => e.2.label.getD "") 4 none).map (fun es => es.map (·.1)) = .ok [0, 1] := by
  decide +kernel

end Ibcx.Props
