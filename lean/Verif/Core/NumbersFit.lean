import Verif.Spec.Fits
import Verif.Core.Inv
import Verif.KVLemmas
/-!
# Stored numbers fit their types

Not part of the model.
-/

namespace Ibcx.Core
open Ibcx Ibcx.Spec.Texts

theorem KV_mem_set {K V : Type} [DecidableEq K] {m : KV K V} {k : K} {v : V} {e : K × V} (h : e ∈ m.set k v) :
    e = (k, v) ∨ e ∈ m := by
  induction m with
  | nil => simpa [KV.set] using h
  | cons x m ih =>
    obtain ⟨k', v'⟩ := x
    unfold KV.set at h
    split at h
    · rcases List.mem_cons.1 h with h | h
      · exact .inl h
      · exact .inr (List.mem_cons_of_mem _ h)
    · rcases List.mem_cons.1 h with h | h
      · exact .inr (by rw [h]; exact List.mem_cons_self)
      · rcases ih h with h | h
        · exact .inl h
        · exact .inr (List.mem_cons_of_mem _ h)

theorem addKey_fits {us us' : Units} {k : Denom} {v : Nat} (hf : BasketFits us) (hv : Amount v)
    (h : us.addKey k v = .ok us') : BasketFits us' := by
  induction us generalizing us' with
  | nil =>
    simp only [Units.addKey, Except.ok.injEq] at h
    subst h
    intro e he
    rw [List.mem_singleton.1 he]
    exact hv
  | cons x us ih =>
    obtain ⟨d, u⟩ := x
    unfold Units.addKey at h
    split at h
    · rw [bind_eq_ok] at h
      obtain ⟨w, hw, h⟩ := h
      cases h
      obtain ⟨hlt, rfl⟩ := add_eq_ok.1 hw
      intro e he
      rcases List.mem_cons.1 he with rfl | he
      · exact hlt
      · exact hf e (List.mem_cons_of_mem _ he)
    · rw [bind_eq_ok] at h
      obtain ⟨w, hw, h⟩ := h
      cases h
      have := ih (fun e he => hf e (List.mem_cons_of_mem _ he)) hw
      intro e he
      rcases List.mem_cons.1 he with rfl | he
      · exact hf _ List.mem_cons_self
      · exact this e he

theorem subKey_fits {us us' : Units} {k : Denom} {v : Nat} (hf : BasketFits us)
    (h : us.subKey k v = .ok us') : BasketFits us' := by
  induction us generalizing us' with
  | nil => cases h
  | cons x us ih =>
    obtain ⟨d, u⟩ := x
    unfold Units.subKey at h
    split at h
    · rw [bind_eq_ok] at h
      obtain ⟨w, hw, h⟩ := h
      cases h
      obtain ⟨hlt, rfl⟩ := sub_eq_ok.1 hw
      intro e he
      rcases List.mem_cons.1 he with rfl | he
      · exact lt_of_le_of_lt (Nat.sub_le u v) (hf (d, u) List.mem_cons_self)
      · exact hf e (List.mem_cons_of_mem _ he)
    · rw [bind_eq_ok] at h
      obtain ⟨w, hw, h⟩ := h
      cases h
      have := ih (fun e he => hf e (List.mem_cons_of_mem _ he)) hw
      intro e he
      rcases List.mem_cons.1 he with rfl | he
      · exact hf _ List.mem_cons_self
      · exact this e he

theorem inflateLoop_fits {ws res res' : Units} {expand total : Nat} (hf : BasketFits res)
    (h : inflateLoop res expand total ws = .ok res') : BasketFits res' := by
  induction ws generalizing res expand total with
  | nil =>
    simp only [inflateLoop, Except.ok.injEq] at h
    exact h ▸ hf
  | cons e ws ih =>
    obtain ⟨d0, w⟩ := e
    simp only [inflateLoop, bind_eq_ok, decMul_eq_ok, ratio_eq_ok, sub_eq_ok] at h
    obtain ⟨m, _, share, hs, res1, hadd, _, _, _, _, h⟩ := h
    obtain ⟨_, hlt, rfl⟩ := hs
    exact ih (addKey_fits hf hlt hadd) h

theorem inflateReserveUnit_fits {ws res res' : Units} {expand : Nat} (hf : BasketFits res)
    (h : inflateReserveUnit res expand ws = .ok res') : BasketFits res' := by
  unfold inflateReserveUnit at h
  rw [bind_eq_ok] at h
  obtain ⟨_, _, h⟩ := h
  exact inflateLoop_fits hf h

theorem addCollected_fits {xs xs' : List Coin} {c : Coin} (hf : ∀ x ∈ xs, Amount x.amount) (hc : Amount c.amount)
    (h : addCollected xs c = .ok xs') : ∀ x ∈ xs', Amount x.amount := by
  induction xs generalizing xs' with
  | nil =>
    simp only [addCollected, Except.ok.injEq] at h
    subst h
    intro e he
    rw [List.mem_singleton.1 he]
    exact hc
  | cons x xs ih =>
    unfold addCollected at h
    split at h
    · rw [bind_eq_ok] at h
      obtain ⟨w, hw, h⟩ := h
      cases h
      obtain ⟨hlt, rfl⟩ := add_eq_ok.1 hw
      intro e he
      rcases List.mem_cons.1 he with rfl | he
      · exact hlt
      · exact hf e (List.mem_cons_of_mem _ he)
    · rw [bind_eq_ok] at h
      obtain ⟨w, hw, h⟩ := h
      cases h
      have := ih (fun e he => hf e (List.mem_cons_of_mem _ he)) hw
      intro e he
      rcases List.mem_cons.1 he with rfl | he
      · exact hf _ List.mem_cons_self
      · exact this e he

theorem foldCollected_fits {cs xs xs' : List Coin} (hf : ∀ x ∈ xs, Amount x.amount) (hc : ∀ c ∈ cs, Amount c.amount)
    (h : cs.foldlM addCollected xs = .ok xs') : ∀ x ∈ xs', Amount x.amount := by
  induction cs generalizing xs with
  | nil =>
    simp [pure, Except.pure] at h
    subst h
    exact hf
  | cons c cs ih =>
    rw [List.foldlM_cons, bind_eq_ok] at h
    obtain ⟨y, hy, h⟩ := h
    exact ih (addCollected_fits hf (hc c List.mem_cons_self) hy) (fun x hx => hc x (List.mem_cons_of_mem _ hx)) h

theorem collect_fits {sf sf' : StreamingFee} {us us' : Units} {now supply : Nat} (hsf : StreamFits sf)
    (hus : BasketFits us) (hn : Number now) (h : sf.collect us now supply = .ok (sf', us')) :
    StreamFits sf' ∧ BasketFits us' := by
  obtain ⟨_, ⟨_, rfl, rfl⟩ | ⟨_, _, _, k, _, _, hb, col, hcol, rfl, rfl⟩⟩ := collect_eq_ok.1 h
  · exact ⟨hsf, hus⟩
  · refine ⟨⟨hsf.1, foldCollected_fits hsf.2.1 ?_ hcol, hn⟩, ?_⟩
    · intro c hc
      obtain ⟨e, he, rfl⟩ := List.mem_map.1 hc
      exact hb e he
    · intro e he
      obtain ⟨x, hx, rfl⟩ := List.mem_map.1 he
      exact lt_of_le_of_lt (Nat.sub_le _ _) (hus x hx)

theorem Fits.collectAll {s s1 : State} {now : Nat} (hi : CoreStateFits s) (hn : Number now)
    (h : collectStreamingFee s now = .ok s1) : CoreStateFits s1 := by
  rcases collectStreamingFee_eq_ok.1 h with ⟨_, rfl⟩ | ⟨sf, sf', us', h1, h2, rfl⟩
  · exact hi
  · obtain ⟨h3, h4⟩ := collect_fits (hi.stream sf h1) hi.index hn h2
    exact { hi with
      stream := fun f hf => by cases hf; exact h3
      index := h4 }

theorem infos_set {m : KV (Denom × Denom) TradeInfo} {k : Denom × Denom} {t : TradeInfo}
    (hm : ∀ e ∈ m, InfoFits e.2) (ht : InfoFits t) : ∀ e ∈ m.set k t, InfoFits e.2 := by
  intro e he
  rcases KV_mem_set he with rfl | he
  · exact ht
  · exact hm e he

theorem Fits.trade {s s' : State} {env : Env} {info : Info} {m : TradeMsg} {ms : List Msg} (hi : CoreStateFits s)
    (hn : Number env.now) (h : trade s env info m = .ok (s', ms)) : CoreStateFits s' := by
  obtain ⟨r, hr, _, h⟩ := trade_eq_ok.1 h
  rcases h with ⟨d, _, _, _, _, h⟩ | ⟨d, _, _, _, _, h⟩ | ⟨d, _, _, _, _, h⟩ | ⟨d, _, _, _, _, h⟩
  · obtain ⟨res, target, current, us', res', h1, h2, h3, h4, _, h6, h7, rfl, _⟩ := deflateReserve_eq_ok.1 h
    exact { hi with
      index := subKey_fits hi.index h6
      reserve := fun us hus => by cases hus; exact inflateReserveUnit_fits (hi.reserve _ h1) h7 }
  · obtain ⟨t, res, target, current, simIn, us', res', g1, h1, h2, h3, _, _, h4, _, _, _, h9, _, h11, _, _,
      h6, h7, rfl, _⟩ := deflate_eq_ok.1 h
    have ht := hi.infos _ (KV.mem_of_get g1)
    exact { hi with
      index := subKey_fits hi.index h6
      reserve := fun us hus => by cases hus; exact inflateReserveUnit_fits (hi.reserve _ h1) h7
      infos := infos_set hi.infos ⟨ht.1, ht.2.1, ht.2.2.1, fun n hx => by cases hx; exact hn⟩ }
  · obtain ⟨res, unit, us', res', h1, h2, _, h4, h5, rfl, _⟩ := inflateReserve_eq_ok.1 h
    exact { hi with
      index := addKey_fits hi.index (hi.reserve _ h1 _ (Units.getKey_mem h2)) h4
      reserve := fun us hus => by cases hus; exact subKey_fits (hi.reserve _ h1) h5 }
  · obtain ⟨t, res, unit, simOut, us', res', g1, h1, h2, _, _, _, _, _, _, _, _, _, hlt, h4, h5, rfl, _⟩ :=
      inflate_eq_ok.1 h
    have ht := hi.infos _ (KV.mem_of_get g1)
    exact { hi with
      index := addKey_fits hi.index hlt h4
      reserve := fun us hus => by cases hus; exact subKey_fits (hi.reserve _ h1) h5
      infos := infos_set hi.infos ⟨ht.1, ht.2.1, ht.2.2.1, fun n hx => by cases hx; exact hn⟩ }

theorem Fits.dispatch {s s' : State} {env : Env} {info : Info} {msg : ExecMsg} {ms : List Msg} (hi : CoreStateFits s)
    (hn : Number env.now) (hm : CoreFits msg) (h : dispatch s env info msg = .ok (s', ms)) : CoreStateFits s' := by
  cases msg with
  | mint a r f =>
    obtain ⟨_, _, _, _, _, _, hlt, rfl, _⟩ := mint_eq_ok.1 h
    exact { hi with supply := hlt }
  | burn r =>
    obtain ⟨_, _, _, _, _, _, _, _, _, _, _, _, _, _, rfl, _⟩ := burn_eq_ok.1 h
    exact { hi with supply := lt_of_le_of_lt (Nat.sub_le _ _) hi.supply }
  | realize =>
    obtain ⟨_, h⟩ := realize_eq_ok.1 h
    rcases h with ⟨_, rfl, _⟩ | ⟨sf, hsf, rfl, _⟩
    · exact hi
    · have := hi.stream sf hsf
      exact { hi with stream := fun f hf => by cases hf; exact ⟨this.1, by simp, this.2.2⟩ }
  | gov m =>
    cases m with
    | pause e => obtain ⟨_, _, _, rfl, _⟩ := pause_eq_ok.1 h; exact { hi with pause := hm }
    | release => obtain ⟨_, _, rfl, _⟩ := release_eq_ok.1 h; exact { hi with pause := by simp }
    | updateGov g => obtain ⟨_, _, _, rfl, _⟩ := updateGov_eq_ok.1 h; exact { hi with }
    | acceptGov => obtain ⟨_, rfl, _⟩ := acceptGov_eq_ok.1 h; exact { hi with }
    | revokeGov => obtain ⟨_, _, rfl, _⟩ := revokeGov_eq_ok.1 h; exact { hi with }
    | updateFeeStrategy p =>
      obtain ⟨_, _, _, _, _, _, rfl, _⟩ := updateFee_eq_ok.1 h
      exact { hi with
        mintFee := hm.1
        burnFee := hm.2.1
        stream := by
          intro f hf
          obtain ⟨p', hp', rfl⟩ := Option.map_eq_some_iff.1 hf
          exact ⟨hm.2.2 p' hp', by simp, hn⟩ }
    | updateRebalanceManager m =>
      obtain ⟨_, _, ⟨r, hr, rfl⟩, _⟩ := updateRebalanceManager_eq_ok.1 h
      exact { hi with targets := fun r' hr' => by cases hr'; exact hi.targets r hr }
    | updateReserveDenom d => obtain ⟨_, _, rfl, _⟩ := updateReserveDenom_eq_ok.1 h; exact { hi with }
    | updateTradeInfo d rs c m =>
      obtain ⟨_, ⟨r, rs', hrs, rfl⟩, _⟩ := updateTradeInfo_eq_ok.1 h
      exact { hi with infos := infos_set hi.infos ⟨hm.1, hm.2.1, hm.2.2, by simp⟩ }
  | rebalance m =>
    cases m with
    | init m de inf =>
      obtain ⟨_, _, _, _, _, _, _, rfl, _⟩ := init_eq_ok.1 h
      exact { hi with
        reserve := fun us hus => by cases hus; intro e he; cases he
        targets := fun r hr => by cases hr; exact hm
        stream := by
          intro f hf
          obtain ⟨p', hp', rfl⟩ := Option.map_eq_some_iff.1 hf
          exact hi.stream p' hp' }
    | trade m => exact Fits.trade hi hn h
    | finalize =>
      obtain ⟨r, res, _, _, _, _, _, rfl, _⟩ := finalize_eq_ok.1 h
      exact { hi with
        index := fun e he => hi.index e (List.mem_filter.1 he).1
        reserve := by simp
        targets := by simp
        stream := by
          intro f hf
          obtain ⟨p', hp', rfl⟩ := Option.map_eq_some_iff.1 hf
          have := hi.stream p' hp'
          exact ⟨this.1, this.2.1, hn⟩ }

theorem Fits.execute {s s' : State} {env : Env} {info : Info} {msg : ExecMsg} {ms : List Msg} (hi : CoreStateFits s)
    (hn : Number env.now) (hm : CoreFits msg) (h : execute s env info msg = .ok (s', ms)) : CoreStateFits s' := by
  obtain ⟨s1, h1, h2⟩ := execute_eq_ok.1 h
  split at h1
  · exact Fits.dispatch (Fits.collectAll hi hn h1) hn hm h2
  · subst h1; exact Fits.dispatch hi hn hm h2

theorem Fits.fresh {env : Env} {m : InstantiateMsg} {s0 s : State} {d : Option Denom} {ms ms' : List Msg} {id : Nat}
    (hn : Number env.now) (hm : InstantiateFits m) (h : instantiate env m = .ok (s0, ms))
    (h' : reply s0 id d = .ok (s, ms')) : CoreStateFits s := by
  obtain ⟨_, _, _, _, _, _, rfl, _⟩ := instantiate_eq_ok.1 h
  obtain ⟨_, d', _, rfl, _⟩ := reply_eq_ok.1 h'
  exact {
    pause := by simp
    mintFee := hm.1.1
    burnFee := hm.1.2.1
    stream := by
      intro f hf
      obtain ⟨p', hp', rfl⟩ := Option.map_eq_some_iff.1 hf
      exact ⟨hm.1.2.2 p' hp', by simp, hn⟩
    supply := by simp [Amount]
    index := hm.2
    reserve := by simp
    targets := by simp
    infos := by simp }

end Ibcx.Core
