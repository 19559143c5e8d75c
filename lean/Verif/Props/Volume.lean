import Verif.Props.Swaps
import Verif.Core.Query
/-!
# Property C95: traded volume over time
-/

namespace Ibcx.Props
open Ibcx Ibcx.Core Ibcx.Spec

/-! ### C95 -/

/-- An accepted swap: when, over which pair, and how much of the reserve denom. -/
structure Swapped where
  time : Nat
  pair : Denom × Denom
  amount : Nat
deriving DecidableEq, Repr

/-- The amount of the reserve denom a trade message asks for. -/
def tradeAmount : ExecMsg → Nat
  | .rebalance (.trade (.deflate _ out _)) => out
  | .rebalance (.trade (.inflate _ amountIn _)) => amountIn
  | _ => 0

/-- The accepted swaps of a history, in order. -/
def swapLog : State → List Call → List Swapped
  | _, [] => []
  | s, c :: cs =>
    (match execute s c.env c.info c.msg, swapPair s c.msg with
     | .ok _, some k => [⟨c.env.now, k, tradeAmount c.msg⟩]
     | _, _ => []) ++ swapLog (step s c).1 cs

/-- The swaps over a pair between two times. -/
def swapsBetween (k : Denom × Denom) (a b : Nat) (log : List Swapped) : List Swapped :=
  log.filter fun x => x.pair = k ∧ a ≤ x.time ∧ x.time ≤ b

/-- The amount of an accepted swap is within the stored maximum. -/
theorem swap_within {s s' : State} {env : Env} {info : Info} {msg : ExecMsg} {ms : List Msg} {k : Denom × Denom}
    {t : TradeInfo} (h : execute s env info msg = .ok (s', ms)) (hk : swapPair s msg = some k)
    (ht : s.tradeInfos.get k = some t) : tradeAmount msg ≤ t.maxTradeAmount := by
  unfold swapPair at hk
  split at hk
  · rename_i d out maxIn
    split at hk
    · cases hk
    · rename_i hd
      cases hk
      obtain ⟨t', _, _, _, _, h1, _, _, _, h2, _⟩ := C24_deflate_limits hd h
      rw [ht] at h1; cases h1
      exact h2
  · rename_i d out maxIn
    split at hk
    · cases hk
    · rename_i hd
      cases hk
      obtain ⟨t', _, _, _, h1, _, _, h2, _⟩ := C24_inflate_limits hd h
      rw [ht] at h1; cases h1
      exact h2
  · cases hk

/-- Every swap of the pair in the log is spaced and limited; `last` is the time of the swap before. -/
theorem swapLog_spaced {k : Denom × Denom} {cd mx : Nat} : ∀ (cs : List Call) {s : State} {t : TradeInfo},
    s.tradeInfos.get k = some t → t.cooldown = cd → t.maxTradeAmount = mx → NoneAccepted (Rewrites k) s cs →
    ((swapLog s cs).filter fun x => x.pair = k).Pairwise (fun a b => a.time + cd ≤ b.time) ∧
    ∀ x ∈ swapLog s cs, x.pair = k → x.amount ≤ mx ∧ ∀ l, t.lastTradedAt = some l → l + cd ≤ x.time := by
  intro cs
  induction cs with
  | nil => intro s t _ _ _ _; simp [swapLog]
  | cons c cs ih =>
    intro s t ht hcd hmx hno
    obtain ⟨hn1, hn2⟩ := hno
    by_cases ha : accepted s c
    · obtain ⟨s', ms, hx⟩ := ha
      have he := step_of_ok hx
      simp only [swapLog, hx]
      rw [he] at hn2 ⊢
      dsimp only at hn2 ⊢
      by_cases htr : ∃ m, c.msg = .rebalance (.trade m)
      · obtain ⟨m, hm⟩ := htr
        rw [hm] at hx
        rcases trade_pair hx with ⟨hnone, hsame, _⟩ | ⟨k2, t2, hk2, ht2, hc2, hset⟩
        · rw [hm, hnone]
          exact ih (by rw [hsame]; exact ht) hcd hmx hn2
        · rw [hm, hk2]
          by_cases e : k2 = k
          · subst e
            rw [ht] at ht2; cases ht2
            obtain ⟨p, q⟩ := ih (t := { t with lastTradedAt := some c.env.now })
              (by rw [hset, KV.get_set, if_pos rfl]) hcd hmx hn2
            constructor
            · simp only [List.cons_append, List.nil_append, List.filter_cons, decide_true, if_true,
                List.pairwise_cons]
              refine ⟨fun b hb => ?_, p⟩
              obtain ⟨hb1, hb2⟩ := List.mem_filter.1 hb
              exact (q b hb1 (by simpa using hb2)).2 _ rfl
            · intro x hx' hxk
              simp only [List.cons_append, List.nil_append, List.mem_cons] at hx'
              rcases hx' with rfl | hx'
              · refine ⟨hmx ▸ swap_within hx hk2 ht, fun l hl => ?_⟩
                rw [← hcd]; exact hc2 l hl
              · obtain ⟨q1, q2⟩ := q x hx' hxk
                refine ⟨q1, fun l hl => ?_⟩
                have := q2 _ rfl
                have := hc2 l hl
                omega
          · obtain ⟨p, q⟩ := ih (t := t) (by rw [hset, KV.get_set, if_neg e]; exact ht) hcd hmx hn2
            constructor
            · simp only [List.cons_append, List.nil_append, List.filter_cons, e, decide_false]
              exact p
            · intro x hx' hxk
              simp only [List.cons_append, List.nil_append, List.mem_cons] at hx'
              rcases hx' with rfl | hx'
              · exact absurd hxk e
              · exact q x hx' hxk
      · have hsw : swapPair s c.msg = none := by
          unfold swapPair
          split
          · rename_i h; exact absurd ⟨_, h⟩ htr
          · rename_i h; exact absurd ⟨_, h⟩ htr
          · rfl
        rw [hsw]
        have hk := infos_kept hx
        obtain ⟨env, info, msg⟩ := c
        dsimp only at hx hk htr hn1
        split at hk
        · rename_i d rs c' m hx'
          obtain ⟨r, rs', rfl, hk⟩ := hk
          have e : (d, r.tokenDenom) ≠ k := fun e => hn1 ⟨d, r, rs', c', m, rfl, e⟩ ⟨_, _, hx'⟩
          exact ih (by rw [hk, KV.get_set, if_neg e]; exact ht) hcd hmx hn2
        · exact absurd ⟨_, rfl⟩ htr
        · exact ih (by rw [hk]; exact ht) hcd hmx hn2
    · have hs := step_of_not_accepted ha
      rw [hs] at hn2
      have : swapLog s (c :: cs) = swapLog s cs := by
        simp only [swapLog, hs]
        split
        · rename_i hx _; exact absurd ⟨_, _, hx⟩ ha
        · rfl
      rw [this]
      exact ih ht hcd hmx hn2

theorem spaced_count {cd : Nat} : ∀ (l : List Swapped) (a b : Nat), l.Pairwise (fun x y => x.time + cd ≤ y.time) →
    (∀ x ∈ l, a ≤ x.time ∧ x.time ≤ b) → l.length * cd ≤ b - a + cd := by
  intro l
  induction l with
  | nil => intro a b _ _; simp
  | cons x xs ih =>
    intro a b hp hb
    obtain ⟨h1, h2⟩ := List.pairwise_cons.1 hp
    obtain ⟨b1, b2⟩ := hb x (by simp)
    cases xs with
    | nil => simp
    | cons y ys =>
      have := ih (x.time + cd) b h2 (fun z hz => ⟨h1 z hz, (hb z (by simp only [List.mem_cons] at hz ⊢; tauto)).2⟩)
      have hy := h1 y (by simp)
      have hy2 := (hb y (by simp)).2
      rw [List.length_cons, Nat.succ_mul]
      omega

/-- **C95 (volume).** As long as governance does not rewrite the route of a pair, the swaps accepted over it within
any stretch of time are spaced by the stored cooldown, and together move at most the stored maximum, once for every
full cooldown in the stretch and once more. -/
theorem C95_volume {s : State} {k : Denom × Denom} {t : TradeInfo} (ht : getTradeInfo s k.1 k.2 = some t)
    (cs : List Call) (hno : NoneAccepted (Rewrites k) s cs) (a b : Nat) :
    (swapsBetween k a b (swapLog s cs)).Pairwise (fun x y => x.time + t.cooldown ≤ y.time) ∧
    ((swapsBetween k a b (swapLog s cs)).map (·.amount)).sum * t.cooldown ≤ t.maxTradeAmount * (b - a + t.cooldown) := by
  obtain ⟨p, q⟩ := swapLog_spaced cs ht rfl rfl hno
  have hp : (swapsBetween k a b (swapLog s cs)).Pairwise (fun x y => x.time + t.cooldown ≤ y.time) := by
    have : swapsBetween k a b (swapLog s cs) =
        ((swapLog s cs).filter fun x => x.pair = k).filter fun x => a ≤ x.time ∧ x.time ≤ b := by
      rw [List.filter_filter]
      unfold swapsBetween
      congr 1
      funext x
      simp only [Bool.decide_and, Bool.and_comm]
    rw [this]
    exact p.filter _
  refine ⟨hp, ?_⟩
  have hmem : ∀ x ∈ swapsBetween k a b (swapLog s cs), x ∈ swapLog s cs ∧ x.pair = k ∧ a ≤ x.time ∧ x.time ≤ b := by
    intro x hx
    obtain ⟨h1, h2⟩ := List.mem_filter.1 hx
    exact ⟨h1, by simpa using h2⟩
  have hcount := spaced_count _ a b hp (fun x hx => (hmem x hx).2.2)
  have hsum : ((swapsBetween k a b (swapLog s cs)).map (·.amount)).sum ≤
      (swapsBetween k a b (swapLog s cs)).length * t.maxTradeAmount := by
    have := List.sum_le_card_nsmul ((swapsBetween k a b (swapLog s cs)).map (·.amount)) t.maxTradeAmount (by
      intro n hn
      obtain ⟨x, hx, rfl⟩ := List.mem_map.1 hn
      exact (q x (hmem x hx).1 (hmem x hx).2.1).1)
    simpa using this
  calc ((swapsBetween k a b (swapLog s cs)).map (·.amount)).sum * t.cooldown
      ≤ (swapsBetween k a b (swapLog s cs)).length * t.maxTradeAmount * t.cooldown := Nat.mul_le_mul_right _ hsum
    _ = t.maxTradeAmount * ((swapsBetween k a b (swapLog s cs)).length * t.cooldown) := by ring
    _ ≤ t.maxTradeAmount * (b - a + t.cooldown) := Nat.mul_le_mul_left _ hcount

/-- Three sales of 900 are tried within 100 seconds; cooldown 60 lets two through, and 1800 * 60 is at most
1000 * 160. -/
example : getTradeInfo (run Demo.s1 swapHistory).1 "uatom" "uosmo" = some ⟨[⟨1, "uosmo"⟩], 60, 1000, none⟩ ∧
    swapLog (run Demo.s1 swapHistory).1 [sellAtom 2000, buyIon 2030, sellAtom 2059, sellAtom 2100] =
      [⟨2000, ("uatom", "uosmo"), 900⟩, ⟨2030, ("uosmo", "uion"), 500⟩, ⟨2100, ("uatom", "uosmo"), 900⟩] := by
  decide +kernel

/-- **C95 (the limit rests on governance).** Rewriting the route, even with the same settings, forgets the last swap:
the next one is possible in the same second, so the bound does not hold across rewrites. -/
theorem C95_rewrite_forgets : ¬ ∀ (s : State) (k : Denom × Denom) (t : TradeInfo) (cs : List Call) (a b : Nat),
    Reachable s → getTradeInfo s k.1 k.2 = some t → a ≤ b →
    (∀ c ∈ cs, ∀ d rs cd mx, c.msg = .gov (.updateTradeInfo d rs cd mx) →
      rs = t.routes ∧ cd = t.cooldown ∧ mx = t.maxTradeAmount) →
    ((swapsBetween k a b (swapLog s cs)).map (·.amount)).sum * t.cooldown ≤
      t.maxTradeAmount * (b - a + t.cooldown) := by
  intro h
  have := h (run Demo.s1 swapHistory).1 ("uatom", "uosmo") ⟨[⟨1, "uosmo"⟩], 60, 1000, none⟩
    [sellAtom 2000, ⟨Demo.env 2000, ⟨"gov", []⟩, .gov (.updateTradeInfo "uatom" [⟨1, "uosmo"⟩] 60 1000)⟩, sellAtom 2000]
    2000 2000 (Demo.s1_reachable.run _) (by decide +kernel) (le_refl _) (by
      intro c hc d rs cd mx e
      simp only [List.mem_cons, List.not_mem_nil, or_false] at hc
      rcases hc with rfl | rfl | rfl
      · cases e
      · cases e; exact ⟨rfl, rfl, rfl⟩
      · cases e)
  revert this
  decide +kernel

/-- The witness: two sales of 900 at the same second, allowed 1000 per minute. -/
example : swapLog (run Demo.s1 swapHistory).1
    [sellAtom 2000, ⟨Demo.env 2000, ⟨"gov", []⟩, .gov (.updateTradeInfo "uatom" [⟨1, "uosmo"⟩] 60 1000)⟩, sellAtom 2000] =
      [⟨2000, ("uatom", "uosmo"), 900⟩, ⟨2000, ("uatom", "uosmo"), 900⟩] := by
  decide +kernel

end Ibcx.Props
