import Verif.Core.Inv
/-!
# Which message changes which part of the state

Not part of the model.
-/

namespace Ibcx.Core
open Ibcx

/-- Changes of the configuration and the nomination by an accepted message. -/
theorem config_effect {s s' : State} {env : Env} {info : Info} {msg : ExecMsg} {ms : List Msg}
    (h : execute s env info msg = .ok (s', ms)) :
    match msg with
    | .gov (.pause e) => s.config.gov = info.sender ∧ (s.config.paused.refresh env.now).paused = false ∧
        (∀ x, e = some x → env.now < x) ∧
        s'.config = { s.config with paused := ⟨true, e⟩ } ∧ s'.pendingGov = s.pendingGov
    | .gov .release => s.config.gov = info.sender ∧ (s.config.paused.refresh env.now).paused = true ∧
        s'.config = { s.config with paused := ⟨false, none⟩ } ∧ s'.pendingGov = s.pendingGov
    | .gov (.updateGov g) => s.config.gov = info.sender ∧ s.pendingGov = none ∧
        s'.config = s.config ∧ s'.pendingGov = some g
    | .gov .acceptGov => s.pendingGov = some info.sender ∧
        s'.config = { s.config with gov := info.sender } ∧ s'.pendingGov = none
    | .gov .revokeGov => s.config.gov = info.sender ∧ s'.config = s.config ∧ s'.pendingGov = none
    | .gov (.updateReserveDenom d) => s.config.gov = info.sender ∧ s.rebalance = none ∧
        s'.config = { s.config with reserveDenom := d } ∧ s'.pendingGov = s.pendingGov
    | _ => s'.config = s.config ∧ s'.pendingGov = s.pendingGov := by
  obtain ⟨s1, h1, h2⟩ := execute_eq_ok.1 h
  cases msg with
  | mint a r f =>
    have f := collectStreamingFee_frame h1
    obtain ⟨_, _, _, _, _, _, _, rfl, _⟩ := mint_eq_ok.1 h2
    exact ⟨f.1, f.2.1⟩
  | burn r =>
    have f := collectStreamingFee_frame h1
    obtain ⟨_, _, _, _, _, _, _, _, _, _, _, _, _, _, rfl, _⟩ := burn_eq_ok.1 h2
    exact ⟨f.1, f.2.1⟩
  | realize =>
    have f := collectStreamingFee_frame h1
    obtain ⟨_, h⟩ := realize_eq_ok.1 h2
    rcases h with ⟨_, rfl, _⟩ | ⟨sf, hsf, rfl, _⟩ <;> exact ⟨f.1, f.2.1⟩
  | gov m =>
    cases m with
    | updateFeeStrategy p =>
      have f := collectStreamingFee_frame h1
      obtain ⟨_, _, _, _, _, _, rfl, _⟩ := updateFee_eq_ok.1 h2
      exact ⟨f.1, f.2.1⟩
    | pause e =>
      simp [collectsFirst] at h1; subst h1
      obtain ⟨a, b, c, rfl, _⟩ := pause_eq_ok.1 h2; exact ⟨a, b, c, rfl, rfl⟩
    | release =>
      simp [collectsFirst] at h1; subst h1
      obtain ⟨a, b, rfl, _⟩ := release_eq_ok.1 h2; exact ⟨a, b, rfl, rfl⟩
    | updateGov g =>
      simp [collectsFirst] at h1; subst h1
      obtain ⟨a, b, _, rfl, _⟩ := updateGov_eq_ok.1 h2; exact ⟨a, b, rfl, rfl⟩
    | acceptGov =>
      simp [collectsFirst] at h1; subst h1
      obtain ⟨a, rfl, _⟩ := acceptGov_eq_ok.1 h2; exact ⟨a, rfl, rfl⟩
    | revokeGov =>
      simp [collectsFirst] at h1; subst h1
      obtain ⟨_, a, rfl, _⟩ := revokeGov_eq_ok.1 h2; exact ⟨a, rfl, rfl⟩
    | updateRebalanceManager m =>
      simp [collectsFirst] at h1; subst h1
      obtain ⟨_, _, ⟨r, hr, rfl⟩, _⟩ := updateRebalanceManager_eq_ok.1 h2; exact ⟨rfl, rfl⟩
    | updateReserveDenom d =>
      simp [collectsFirst] at h1; subst h1
      obtain ⟨a, b, rfl, _⟩ := updateReserveDenom_eq_ok.1 h2; exact ⟨a, b, rfl, rfl⟩
    | updateTradeInfo d rs c m =>
      simp [collectsFirst] at h1; subst h1
      obtain ⟨_, ⟨r, rs', hrs, rfl⟩, _⟩ := updateTradeInfo_eq_ok.1 h2; exact ⟨rfl, rfl⟩
  | rebalance m =>
    cases m with
    | init m de inf =>
      have f := collectStreamingFee_frame h1
      obtain ⟨_, _, _, _, _, _, _, rfl, _⟩ := init_eq_ok.1 h2
      exact ⟨f.1, f.2.1⟩
    | trade m =>
      simp [collectsFirst] at h1; subst h1
      obtain ⟨r, _, _, h⟩ := trade_eq_ok.1 h2
      rcases h with ⟨d, _, _, _, _, h⟩ | ⟨d, _, _, _, _, h⟩ | ⟨d, _, _, _, _, h⟩ | ⟨d, _, _, _, _, h⟩
      · obtain ⟨_, _, _, _, _, _, _, _, _, _, _, _, rfl, _⟩ := deflateReserve_eq_ok.1 h; exact ⟨rfl, rfl⟩
      · obtain ⟨_, _, _, _, _, _, _, _, _, _, _, _, _, _, _, _, _, _, _, _, _, _, _, _, rfl, _⟩ := deflate_eq_ok.1 h
        exact ⟨rfl, rfl⟩
      · obtain ⟨_, _, _, _, _, _, _, _, _, rfl, _⟩ := inflateReserve_eq_ok.1 h; exact ⟨rfl, rfl⟩
      · obtain ⟨_, _, _, _, _, _, _, _, _, _, _, _, _, _, _, _, _, _, _, _, _, rfl, _⟩ := inflate_eq_ok.1 h
        exact ⟨rfl, rfl⟩
    | finalize =>
      simp [collectsFirst] at h1; subst h1
      obtain ⟨r, res, _, _, _, _, _, rfl, _⟩ := finalize_eq_ok.1 h2
      exact ⟨rfl, rfl⟩

/-- Changes of the trade infos by a trade. -/
theorem trade_infos {s s' : State} {env : Env} {info : Info} {m : TradeMsg} {ms : List Msg}
    (h : trade s env info m = .ok (s', ms)) :
    s'.tradeInfos = s.tradeInfos ∨
    ∃ k t, s.tradeInfos.get k = some t ∧
      s'.tradeInfos = s.tradeInfos.set k { t with lastTradedAt := some env.now } := by
  obtain ⟨r, _, _, h⟩ := trade_eq_ok.1 h
  rcases h with ⟨d, _, _, _, _, h⟩ | ⟨d, _, _, _, _, h⟩ | ⟨d, _, _, _, _, h⟩ | ⟨d, _, _, _, _, h⟩
  · obtain ⟨_, _, _, _, _, _, _, _, _, _, _, _, rfl, _⟩ := deflateReserve_eq_ok.1 h; exact .inl rfl
  · obtain ⟨t, _, _, _, _, _, _, ht, _, _, _, _, _, _, _, _, _, _, _, _, _, _, _, _, rfl, _⟩ := deflate_eq_ok.1 h
    exact .inr ⟨_, t, ht, rfl⟩
  · obtain ⟨_, _, _, _, _, _, _, _, _, rfl, _⟩ := inflateReserve_eq_ok.1 h; exact .inl rfl
  · obtain ⟨t, _, _, _, _, _, ht, _, _, _, _, _, _, _, _, _, _, _, _, _, _, rfl, _⟩ := inflate_eq_ok.1 h
    exact .inr ⟨_, t, ht, rfl⟩

/-- Changes of the fee settings, the trade routes and the rebalance by an accepted message. -/
theorem settings_effect {s s' : State} {env : Env} {info : Info} {msg : ExecMsg} {ms : List Msg}
    (hi : Inv s) (h : execute s env info msg = .ok (s', ms)) :
    (s.config.gov = info.sender ∨
      (s'.fee.collector = s.fee.collector ∧ s'.fee.mintFee = s.fee.mintFee ∧ s'.fee.burnFee = s.fee.burnFee ∧
       s'.fee.streamingFee.map (·.rate) = s.fee.streamingFee.map (·.rate) ∧
       (∀ a b, (s'.tradeInfos.get (a, b)).map (fun t => (t.routes, t.cooldown, t.maxTradeAmount)) =
          (s.tradeInfos.get (a, b)).map (fun t => (t.routes, t.cooldown, t.maxTradeAmount))) ∧
       (s'.rebalance = s.rebalance ∨ (msg = .rebalance .finalize ∧ s'.rebalance = none)))) := by
  obtain ⟨s1, h1, h2⟩ := execute_eq_ok.1 h
  cases msg with
  | mint a r f =>
    have f := collectStreamingFee_frame h1
    obtain ⟨_, _, _, _, _, _, _, rfl, _⟩ := mint_eq_ok.1 h2
    obtain ⟨f1, f2, f3, f4, f5, f6, f7, f8, f9, f10, f11⟩ := f
    refine .inr ⟨f7, f8, f9, ?_, fun _ _ => by rw [f6], .inl f4⟩
    have := congrArg (Option.map Prod.fst) f10; simpa [Function.comp_def] using this
  | burn r =>
    have f := collectStreamingFee_frame h1
    obtain ⟨_, _, _, _, _, _, _, _, _, _, _, _, _, _, rfl, _⟩ := burn_eq_ok.1 h2
    obtain ⟨f1, f2, f3, f4, f5, f6, f7, f8, f9, f10, f11⟩ := f
    refine .inr ⟨f7, f8, f9, ?_, fun _ _ => by rw [f6], .inl f4⟩
    have := congrArg (Option.map Prod.fst) f10; simpa [Function.comp_def] using this
  | realize =>
    obtain ⟨f1, f2, f3, f4, f5, f6, f7, f8, f9, f10, f11⟩ := collectStreamingFee_frame h1
    have f12 := congrArg (Option.map Prod.fst) f10; simp [Function.comp_def] at f12
    obtain ⟨_, h⟩ := realize_eq_ok.1 h2
    rcases h with ⟨_, rfl, _⟩ | ⟨sf, hsf, rfl, _⟩
    · exact .inr ⟨f7, f8, f9, f12, fun _ _ => by rw [f6], .inl f4⟩
    · refine .inr ⟨f7, f8, f9, ?_, fun _ _ => by rw [f6], .inl f4⟩
      rw [← f12, hsf]; rfl
  | gov m =>
    cases m with
    | updateFeeStrategy p =>
      have f := collectStreamingFee_frame h1
      obtain ⟨a, _, _, _, _, _, rfl, _⟩ := updateFee_eq_ok.1 h2
      left; rw [← f.1]; exact a
    | pause e =>
      simp [collectsFirst] at h1; subst h1
      obtain ⟨a, _⟩ := pause_eq_ok.1 h2; exact .inl a
    | release =>
      simp [collectsFirst] at h1; subst h1
      obtain ⟨a, _⟩ := release_eq_ok.1 h2; exact .inl a
    | updateGov g =>
      simp [collectsFirst] at h1; subst h1
      obtain ⟨a, _⟩ := updateGov_eq_ok.1 h2; exact .inl a
    | acceptGov =>
      simp [collectsFirst] at h1; subst h1
      obtain ⟨a, rfl, _⟩ := acceptGov_eq_ok.1 h2
      exact .inr ⟨rfl, rfl, rfl, rfl, fun _ _ => rfl, .inl rfl⟩
    | revokeGov =>
      simp [collectsFirst] at h1; subst h1
      obtain ⟨_, a, rfl, _⟩ := revokeGov_eq_ok.1 h2; exact .inl a
    | updateRebalanceManager m =>
      simp [collectsFirst] at h1; subst h1
      obtain ⟨a, _⟩ := updateRebalanceManager_eq_ok.1 h2; exact .inl a
    | updateReserveDenom d =>
      simp [collectsFirst] at h1; subst h1
      obtain ⟨a, _⟩ := updateReserveDenom_eq_ok.1 h2; exact .inl a
    | updateTradeInfo d rs c m =>
      simp [collectsFirst] at h1; subst h1
      obtain ⟨a, _⟩ := updateTradeInfo_eq_ok.1 h2; exact .inl a
  | rebalance m =>
    cases m with
    | init m de inf =>
      have f := collectStreamingFee_frame h1
      obtain ⟨a, _⟩ := init_eq_ok.1 h2
      left; rw [← f.1]; exact a
    | trade m =>
      simp [collectsFirst] at h1; subst h1
      obtain ⟨r, hr, t⟩ := trade_step hi h2
      refine .inr ⟨by rw [t.fee], by rw [t.fee], by rw [t.fee], by rw [t.fee], ?_, .inl t.rebalance⟩
      intro a b
      rcases trade_infos h2 with h | ⟨k, t, hk, h⟩
      · rw [h]
      · rw [h, KV.get_set]
        split
        · rename_i e; subst e; simp [hk]
        · rfl
    | finalize =>
      simp [collectsFirst] at h1; subst h1
      obtain ⟨r, res, _, _, _, _, _, rfl, _⟩ := finalize_eq_ok.1 h2
      refine .inr ⟨rfl, rfl, rfl, ?_, fun _ _ => rfl, .inr ⟨rfl, rfl⟩⟩
      simp [Function.comp_def]

end Ibcx.Core
