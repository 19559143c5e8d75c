import Verif.Storage.CoreExecLemmas
import Verif.Props.StorageRun
import Verif.Props.Swaps
/-!
# C97: the core contract on the byte storage

The handlers that load and save bytes do what the abstract contract does, for every message, query, migration and
history.
-/

namespace Ibcx.Props
open Ibcx Ibcx.Iface Ibcx.Storage

/-- The denom fits the length prefix of a key part. -/
def DenomFits (d : Denom) : Prop := (textBytes d).length ≤ 0xFFFF

instance (d : Denom) : Decidable (DenomFits d) := inferInstanceAs (Decidable ((textBytes d).length ≤ 0xFFFF))

/-- The denoms of a message that become the first part of a map key, or may later do so, fit the length prefix. -/
def CoreSendable : Core.ExecMsg → Prop
  | .gov (.updateReserveDenom d) => DenomFits d
  | .gov (.updateTradeInfo d _ _ _) => DenomFits d
  | .rebalance (.trade (.deflate d _ _)) => DenomFits d
  | _ => True

/-- The denoms of a state that are the first part of a map key, or may become it, fit the length prefix. -/
def StateFits (s : Core.State) : Prop :=
  DenomFits s.config.reserveDenom ∧ ∀ e ∈ s.tradeInfos, DenomFits e.1.1

section
open Ibcx.Core
variable {V : Type} [CoreCell V] {v : ContractVersion} {m : Raw V} {s : Core.State}

theorem collect_matches (h : CoreRep m (coreAt v s)) (rd : CoreReads V s) (now : Nat) :
    (∃ e, coreCollect m now = .error e ∧ collectStreamingFee s now = .error e) ∨
    ∃ m' s', coreCollect m now = .ok m' ∧ collectStreamingFee s now = .ok s' ∧ CoreRep m' (coreAt v s') ∧
      s'.config = s.config := by
  unfold coreCollect collectStreamingFee
  simp only [h.fee rd.fee, h.supply rd.supply, ok_bind]
  cases hsf : s.fee.streamingFee with
  | none =>
    right
    obtain ⟨m', e1, h1⟩ := h.putFee s.fee
    exact ⟨m', s, e1, rfl, h1, rfl⟩
  | some sf =>
    simp only [h.units rd.units, ok_bind]
    cases hc : sf.collect s.indexUnits now s.totalSupply with
    | error e => exact .inl ⟨e, rfl, rfl⟩
    | ok x =>
      obtain ⟨sf', u'⟩ := x
      right
      obtain ⟨m1, e1, h1⟩ := h.putUnits u'
      obtain ⟨m2, e2, h2⟩ := h1.putFee { s.fee with streamingFee := some sf' }
      refine ⟨m2, _, ?_, rfl, h2, rfl⟩
      simp only [ok_bind, e1, e2]

theorem token_matches (h : CoreRep m (coreAt v s)) (rd : CoreReads V s) (env : Env) (info : Info) :
    (∀ amount receiver refundTo, CoreMatches v (coreMint m env info amount receiver refundTo)
      (mint s env info amount receiver refundTo)) ∧
    (∀ redeemTo, CoreMatches v (coreBurn m env info redeemTo) (burn s env info redeemTo)) ∧
    CoreMatches v (coreRealize m info) (realizeStreamingFee s info) := by
  refine ⟨fun amount receiver refundTo => ?_, fun redeemTo => ?_, ?_⟩
  · simp only [coreMint, mint, h.config rd.config, h.mayRebalance rd.rebalance, h.fee rd.fee, h.units rd.units, h.supply rd.supply, ok_bind]
    refine .bind _ fun _ _ => .bind _ fun _ _ => .bind _ fun _ _ => .bind _ fun _ _ => .bind _ fun _ _ =>
      .bind _ fun _ _ => .bind _ fun _ _ => .bind _ fun n _ => ?_
    obtain ⟨m', e, h'⟩ := h.putSupply n
    simp only [e, ok_bind]
    exact ⟨rfl, h'⟩
  · simp only [coreBurn, burn, h.config rd.config, h.mayRebalance rd.rebalance, h.fee rd.fee, h.units rd.units, h.supply rd.supply, ok_bind]
    refine .bind _ fun _ _ => .bind _ fun _ _ => .bind _ fun _ _ => .bind _ fun _ _ => .bind _ fun _ _ =>
      .bind _ fun _ _ => .bind _ fun _ _ => .bind _ fun n _ => ?_
    obtain ⟨m', e, h'⟩ := h.putSupply n
    simp only [e, ok_bind]
    exact ⟨rfl, h'⟩
  · simp only [coreRealize, realizeStreamingFee, h.fee rd.fee, ok_bind]
    refine .bind _ fun _ _ => ?_
    cases hsf : s.fee.streamingFee with
    | none =>
      obtain ⟨m', e, h'⟩ := h.putFee s.fee
      simp only [e, ok_bind]
      exact ⟨rfl, h'⟩
    | some sf =>
      obtain ⟨m', e, h'⟩ := h.putFee { s.fee with streamingFee := some { sf with collected := [] } }
      simp only [e, ok_bind]
      exact ⟨rfl, h'⟩

theorem gov_matches (h : CoreRep m (coreAt v s)) (rd : CoreReads V s) (env : Env) (info : Info) (msg : GovMsg)
    (hs : CoreSendable (.gov msg)) : CoreMatches v (coreGov m env info msg) (handleGov s env info msg) := by
  cases msg with
  | pause x =>
    simp only [coreGov, handleGov, corePause, pause, h.config rd.config, ok_bind]
    refine .bind _ fun _ _ => .bind _ fun _ _ => ?_
    have tail : CoreMatches v (do
        let m ← corePut m .config (.config { s.config with paused := { paused := true, expiresAt := x } })
        .ok (m, [])) (.ok ({ s with config := { s.config with paused := { paused := true, expiresAt := x } } }, [])) := by
      obtain ⟨m', e, h'⟩ := h.putConfig { s.config with paused := { paused := true, expiresAt := x } }
      simp only [e, ok_bind]
      exact ⟨rfl, h'⟩
    cases x with
    | none => exact tail
    | some t => exact .bind _ fun _ _ => tail
  | release =>
    simp only [coreGov, handleGov, coreRelease, release, h.config rd.config, ok_bind]
    refine .bind _ fun _ _ => .bind _ fun _ _ => ?_
    obtain ⟨m', e, h'⟩ := h.putConfig { s.config with paused := {} }
    simp only [e, ok_bind]
    exact ⟨rfl, h'⟩
  | updateGov g =>
    simp only [coreGov, handleGov, coreUpdateGov, updateGov, h.config rd.config, h.mayPending rd.pending, ok_bind]
    refine .bind _ fun _ _ => .bind _ fun _ _ => .bind _ fun a _ => ?_
    obtain ⟨m', e, h'⟩ := h.putPending a
    simp only [e, ok_bind]
    exact ⟨rfl, h'⟩
  | acceptGov =>
    simp only [coreGov, handleGov, coreAcceptGov, acceptGov, h.pending rd.pending]
    cases hp : s.pendingGov with
    | none => exact rfl
    | some a =>
      simp only [orNotFound, ok_bind]
      refine .bind _ fun _ _ => ?_
      obtain ⟨m1, e1, h1⟩ := h.removePending
      obtain ⟨m2, e2, h2⟩ := h1.putConfig { s.config with gov := a }
      simp only [e1, h1.config rd.config, e2, ok_bind]
      exact ⟨rfl, h2⟩
  | revokeGov =>
    simp only [coreGov, handleGov, coreRevokeGov, revokeGov, h.pending rd.pending]
    cases hp : s.pendingGov with
    | none => exact rfl
    | some a =>
      simp only [orNotFound, ok_bind, h.config rd.config]
      refine .bind _ fun _ _ => ?_
      obtain ⟨m1, e1, h1⟩ := h.removePending
      simp only [e1, ok_bind]
      exact ⟨rfl, h1⟩
  | updateFeeStrategy p =>
    simp only [coreGov, handleGov, coreUpdateFee, updateFee, h.config rd.config, h.mayRebalance rd.rebalance, h.fee rd.fee, ok_bind]
    refine .bind _ fun _ _ => .bind _ fun _ _ => .bind _ fun a _ => .bind _ fun _ _ => ?_
    obtain ⟨m', e, h'⟩ := h.putFee
      { collector := a, mintFee := p.mintFee, burnFee := p.burnFee
        streamingFee := p.streamingFee.map (·.toState env.now) }
    simp only [e, ok_bind]
    exact ⟨rfl, h'⟩
  | updateRebalanceManager a =>
    simp only [coreGov, handleGov, coreUpdateManager, updateRebalanceManager, h.config rd.config, h.mayRebalance rd.rebalance, ok_bind]
    refine .bind _ fun _ _ => ?_
    cases hr : s.rebalance with
    | none => exact rfl
    | some r =>
      refine .bind _ fun b _ => ?_
      obtain ⟨m', e, h'⟩ := h.putRebalance { r with manager := b }
      simp only [e, ok_bind]
      exact ⟨rfl, h'⟩
  | updateReserveDenom d =>
    simp only [coreGov, handleGov, coreUpdateReserveDenom, updateReserveDenom, h.config rd.config, h.mayRebalance rd.rebalance, ok_bind]
    refine .bind _ fun _ _ => .bind _ fun _ _ => ?_
    obtain ⟨m', e, h'⟩ := h.putConfig { s.config with reserveDenom := d }
    simp only [e, ok_bind]
    exact ⟨rfl, h'⟩
  | updateTradeInfo d r c x =>
    simp only [coreGov, handleGov, coreUpdateTradeInfo, updateTradeInfo, h.config rd.config, ok_bind]
    refine .bind _ fun _ _ => .bind _ fun o _ => ?_
    obtain ⟨m', e, h'⟩ := h.putInfo (i := d) hs o
      { routes := r, cooldown := c, maxTradeAmount := x, lastTradedAt := none }
    simp only [e, ok_bind]
    exact ⟨rfl, h'⟩

theorem trade_matches (h : CoreRep m (coreAt v s)) (rd : CoreReads V s) (hf : DenomFits s.config.reserveDenom) (env : Env) (info : Info)
    (msg : TradeMsg) (hs : CoreSendable (.rebalance (.trade msg))) :
    CoreMatches v (coreTrade m env info msg) (trade s env info msg) := by
  have two : ∀ (s : Core.State) (m : Raw V) (i r : Units) (ms : List Msg), CoreRep m (coreAt v s) →
      CoreMatches v (do
        let m ← corePut m .indexUnits (.units i)
        let m ← corePut m .reserveUnits (.units r)
        .ok (m, ms)) (.ok ({ s with indexUnits := i, reserveUnits := some r }, ms)) := by
    intro s m i r ms h
    obtain ⟨m1, e1, h1⟩ := h.putUnits i
    obtain ⟨m2, e2, h2⟩ := h1.putReserve r
    simp only [e1, e2, ok_bind]
    exact ⟨rfl, h2⟩
  have three : ∀ (s : Core.State) (m : Raw V) (i r : Units) (a b : Denom) (t : TradeInfo) (ms : List Msg),
      DenomFits a → CoreRep m (coreAt v s) →
      CoreMatches v (do
        let m ← corePut m .indexUnits (.units i)
        let m ← corePut m .reserveUnits (.units r)
        let m ← corePut m (.tradeInfo a b) (.tradeInfo t)
        .ok (m, ms))
        (.ok ({ s with
          indexUnits := i
          reserveUnits := some r
          tradeInfos := s.tradeInfos.set (a, b) t }, ms)) := by
    intro s m i r a b t ms ha h
    obtain ⟨m1, e1, h1⟩ := h.putUnits i
    obtain ⟨m2, e2, h2⟩ := h1.putReserve r
    obtain ⟨m3, e3, h3⟩ := h2.putInfo (i := a) ha b t
    simp only [e1, e2, e3, ok_bind]
    exact ⟨rfl, h3⟩
  simp only [coreTrade, trade, h.mayRebalance rd.rebalance, ok_bind]
  cases hr : s.rebalance with
  | none => exact rfl
  | some r =>
    refine .bind _ fun _ _ => ?_
    cases msg with
    | deflate target amountOut maxIn =>
      simp only [h.config rd.config, ok_bind]
      split
      · simp only [coreDeflateReserve, deflateReserve, h.rebalance rd.rebalance, hr, orNotFound, h.loadUnits rd, ok_bind, bind_assoc]
        refine .bind _ fun _ _ => .bind _ fun _ _ => .bind _ fun _ _ => .bind _ fun _ _ => .bind _ fun _ _ =>
          .bind _ fun _ _ => .bind _ fun _ _ => ?_
        rw [← hr]
        exact two s m _ _ _ h
      · simp only [coreDeflate, deflate, h.config rd.config, h.rebalance rd.rebalance, hr, orNotFound, h.info rd.info (i := target) hs, h.loadUnits rd, ok_bind,
          bind_assoc]
        refine .bind _ fun _ _ => .bind _ fun _ _ => .bind _ fun _ _ => .bind _ fun _ _ => .bind _ fun _ _ =>
          .bind _ fun _ _ => .bind _ fun _ _ => .bind _ fun _ _ => .bind _ fun _ _ => .bind _ fun _ _ =>
          .bind _ fun _ _ => .bind _ fun _ _ => .bind _ fun _ _ => .bind _ fun _ _ => .bind _ fun _ _ => ?_
        rw [← hr]
        exact three s m _ _ _ _ _ _ hs h
    | inflate target amountIn minOut =>
      simp only [h.config rd.config, ok_bind]
      split
      · simp only [coreInflateReserve, inflateReserve, h.loadUnits rd, ok_bind, bind_assoc]
        refine .bind _ fun _ _ => .bind _ fun _ _ => .bind _ fun _ _ => .bind _ fun _ _ => .bind _ fun _ _ => ?_
        exact two s m _ _ _ h
      · simp only [coreInflate, inflate, h.config rd.config, h.info rd.info (i := s.config.reserveDenom) hf, h.loadUnits rd, ok_bind,
          bind_assoc]
        refine .bind _ fun _ _ => .bind _ fun _ _ => .bind _ fun _ _ => .bind _ fun _ _ => .bind _ fun _ _ =>
          .bind _ fun _ _ => .bind _ fun _ _ => .bind _ fun _ _ => .bind _ fun _ _ => .bind _ fun _ _ =>
          .bind _ fun _ _ => .bind _ fun _ _ => .bind _ fun _ _ => ?_
        exact three s m _ _ _ _ _ _ hf h

theorem rebalance_matches (h : CoreRep m (coreAt v s)) (rd : CoreReads V s) (hf : DenomFits s.config.reserveDenom) (env : Env) (info : Info)
    (msg : RebalanceMsg) (hs : CoreSendable (.rebalance msg)) :
    CoreMatches v (coreRebalance m env info msg) (handleRebalance s env info msg) := by
  cases msg with
  | init manager deflation inflation =>
    simp only [coreRebalance, handleRebalance, coreInit, Core.init, coreFreeze, h.fee rd.fee, ok_bind]
    obtain ⟨m1, e1, h1⟩ := h.putFee
      { s.fee with streamingFee := s.fee.streamingFee.map fun sf => { sf with freeze := true } }
    have h1 : CoreRep m1 (coreAt v (freezeStreamingFee s)) := h1
    simp only [e1, h1.config rd.config, h1.mayRebalance rd.rebalance, h1.units rd.units, ok_bind]
    refine .bind _ fun _ _ => .bind _ fun _ _ => .bind _ fun a _ => .bind _ fun _ _ => ?_
    obtain ⟨m2, e2, h2⟩ := h1.putRebalance { manager := a, deflation := deflation, inflation := inflation }
    obtain ⟨m3, e3, h3⟩ := h2.putReserve []
    simp only [e2, e3, ok_bind]
    exact ⟨rfl, h3⟩
  | trade t => exact trade_matches h rd hf env info t hs
  | finalize =>
    simp only [coreRebalance, handleRebalance, coreFinalize, finalize, coreUnfreeze, h.fee rd.fee, ok_bind]
    obtain ⟨m1, e1, h1⟩ := h.putFee
      { s.fee with streamingFee := s.fee.streamingFee.map fun sf => { sf with freeze := false, lastCollectedAt := env.now } }
    have h1 : CoreRep m1 (coreAt v (unfreezeStreamingFee s env.now)) := h1
    simp only [e1, h1.mayRebalance rd.rebalance, h1.units rd.units, h1.reserve rd.reserve, ok_bind]
    cases hr : (unfreezeStreamingFee s env.now).rebalance with
    | none => exact rfl
    | some r =>
      refine .bind _ fun _ _ => .bind _ fun _ _ => .bind _ fun _ _ => .bind _ fun _ _ => ?_
      obtain ⟨m2, e2, h2⟩ := h1.putUnits (unfreezeStreamingFee s env.now).indexUnits.pruneZero
      obtain ⟨m3, e3, h3⟩ := h2.removeRebalance
      obtain ⟨m4, e4, h4⟩ := h3.removeReserve
      simp only [e2, e3, e4, ok_bind]
      exact ⟨rfl, h4⟩

theorem core_execute_matches (h : CoreRep m (coreAt v s)) (rd : CoreReads V s) (hf : DenomFits s.config.reserveDenom) (env : Env) (info : Info)
    (msg : ExecMsg) (hs : CoreSendable msg)
    (rc : ∀ s', collectStreamingFee s env.now = .ok s' → CoreReads V s') :
    CoreMatches v (coreExecute m env info msg) (execute s env info msg) := by
  have disp : ∀ (s : Core.State) (m : Raw V), CoreRep m (coreAt v s) → CoreReads V s →
      DenomFits s.config.reserveDenom →
      CoreMatches v (coreDispatch m env info msg) (dispatch s env info msg) := by
    intro s m h rd hf
    cases msg with
    | mint a r t => exact (token_matches h rd env info).1 a r t
    | burn r => exact (token_matches h rd env info).2.1 r
    | realize => exact (token_matches h rd env info).2.2
    | gov x => exact gov_matches h rd env info x hs
    | rebalance x => exact rebalance_matches h rd hf env info x hs
  unfold coreExecute execute
  by_cases hc : collectsFirst msg = true
  · simp only [hc, if_true]
    rcases collect_matches h rd env.now with ⟨e, h1, h2⟩ | ⟨m', s', h1, h2, h3, h4⟩
    · rw [h1, h2]; exact rfl
    · rw [h1, h2]
      exact disp s' m' h3 (rc s' h2) (by rw [h4]; exact hf)
  · simp only [hc]
    exact disp s m h rd hf

end

/-- In a history of sendable messages the denoms keep fitting. -/
theorem fits_step {s : Core.State} (hf : StateFits s) (hn : (s.tradeInfos.map (·.1)).Nodup) {call : Core.Call}
    (hs : CoreSendable call.msg) : StateFits (Core.step s call).1 := by
  unfold Core.step
  cases hx : Core.execute s call.env call.info call.msg with
  | error e => exact hf
  | ok o =>
    obtain ⟨s', ms⟩ := o
    have set : ∀ (a b : Denom) (t : Core.TradeInfo), DenomFits a → ∀ e ∈ s.tradeInfos.set (a, b) t, DenomFits e.1.1 := by
      intro a b t ha e he
      have h1 := KV.get_of_mem (KV.nodup_set hn) he
      rw [KV.get_set] at h1
      split at h1
      · rename_i e'
        first
          | rw [e']; exact ha
          | rw [← e']; exact ha
      · exact hf.2 _ (KV.mem_of_get h1)
    obtain ⟨env, info, msg⟩ := call
    dsimp only at hx hs ⊢
    have hk := infos_kept hx
    have hc := Core.config_effect hx
    have same : s'.config = s.config → s'.tradeInfos = s.tradeInfos → StateFits s' := by
      intro h1 h2
      unfold StateFits
      rw [h1, h2]; exact hf
    cases msg with
    | mint a r t => exact same hc.1 hk
    | burn r => exact same hc.1 hk
    | realize => exact same hc.1 hk
    | gov g =>
      cases g with
      | pause x => exact ⟨by rw [hc.2.2.2.1]; exact hf.1, by rw [hk]; exact hf.2⟩
      | release => exact ⟨by rw [hc.2.2.1]; exact hf.1, by rw [hk]; exact hf.2⟩
      | updateGov g => exact same hc.2.2.1 hk
      | acceptGov => exact ⟨by rw [hc.2.1]; exact hf.1, by rw [hk]; exact hf.2⟩
      | revokeGov => exact same hc.2.1 hk
      | updateFeeStrategy p => exact same hc.1 hk
      | updateRebalanceManager a => exact same hc.1 hk
      | updateReserveDenom d => exact ⟨by rw [hc.2.2.1]; exact hs, by rw [hk]; exact hf.2⟩
      | updateTradeInfo d r c x =>
        obtain ⟨r0, rs, _, e⟩ := hk
        exact ⟨by rw [hc.1]; exact hf.1, by rw [e]; exact set _ _ _ hs⟩
    | rebalance x =>
      cases x with
      | init a d i => exact same hc.1 hk
      | finalize => exact same hc.1 hk
      | trade t =>
        rcases trade_pair hx with ⟨_, e, _⟩ | ⟨k, t, _, ht, _, e⟩
        · exact same hc.1 e
        · exact ⟨by rw [hc.1]; exact hf.1, by rw [e]; exact set _ _ _ (hf.2 _ (KV.mem_of_get ht))⟩

/-- The byte storage of a state represents it. -/
theorem rep_coreRaw (v : ContractVersion) {s : Core.State} (hn : (s.tradeInfos.map (·.1)).Nodup)
    (hf : ∀ e ∈ s.tradeInfos, DenomFits e.1.1) : CoreRep (coreRaw v s) (coreAt v s) := by
  refine ⟨?_, fun p hp => (C93_core_reads v hf p hp).trans (by cases coreAt v s p <;> rfl), ?_⟩
  · have := List.Nodup.map_on (f := fun p : CorePlace => p.slot.bytes) (l := (corePlaces v s).map (·.1)) (by
      intro a ha b hb h
      obtain ⟨x, hx, rfl⟩ := List.mem_map.1 ha
      obtain ⟨y, hy, rfl⟩ := List.mem_map.1 hb
      exact CorePlace.bytes_inj (core_place_fits hf x hx) (core_place_fits hf y hy) h) (core_places_nodup (v := v) hn)
    simpa [coreRaw, List.map_map, Function.comp_def] using this
  · intro k hk
    cases hx : (coreRaw v s).get k with
    | none => exact absurd hx hk
    | some w =>
      obtain ⟨e, he, h⟩ := List.mem_map.1 (KV.mem_of_get hx)
      exact ⟨e.1, core_place_fits hf e he, (congrArg Prod.fst h).symm⟩

/-- The storage answers every read and every scan like the storage of the state. -/
def CoreHolds (v : ContractVersion) (m : Raw CoreVal) (s : Core.State) : Prop :=
  (∀ k, m.get k = (coreRaw v s).get k) ∧
    ∀ p min max order, rangeWithPrefix m p min max order = rangeWithPrefix (coreRaw v s) p min max order

/-- Two storages representing the same values read and scan alike. -/
theorem core_rep_same {V : Type} [CoreCell V] {m1 m2 : Raw V} {A : CorePlace → Option CoreVal} (h1 : CoreRep m1 A) (h2 : CoreRep m2 A) :
    (∀ k, m1.get k = m2.get k) ∧
      ∀ p min max order, rangeWithPrefix m1 p min max order = rangeWithPrefix m2 p min max order := by
  have hg : ∀ k, m1.get k = m2.get k := by
    intro k
    by_cases hk : ∃ p : CorePlace, p.Fits ∧ k = p.slot.bytes
    · obtain ⟨p, hp, rfl⟩ := hk
      rw [h1.get p hp, h2.get p hp]
    · have a1 : m1.get k = none := by
        by_contra h
        exact hk (h1.only k h)
      have a2 : m2.get k = none := by
        by_contra h
        exact hk (h2.only k h)
      rw [a1, a2]
  refine ⟨hg, ?_⟩
  have hn1 := h1.nodup
  have hn2 := h2.nodup
  have hp : m1.Perm m2 := by
    refine (List.perm_ext_iff_of_nodup (List.Nodup.of_map _ hn1) (List.Nodup.of_map _ hn2)).2 ?_
    rintro ⟨k, w⟩
    constructor
    · intro h
      exact KV.mem_of_get ((hg k).symm.trans (KV.get_of_mem hn1 h))
    · intro h
      exact KV.mem_of_get ((hg k).trans (KV.get_of_mem hn2 h))
  have hs : sortKeys bytesLt m1 = sortKeys bytesLt m2 :=
    eq_of_sorted bytesLt_strict (((sortKeys_perm m1).trans hp).trans (sortKeys_perm m2).symm)
      (sortKeys_sorted bytesLt_strict hn1) (sortKeys_sorted bytesLt_strict hn2)
  intro p min max order
  simp only [rangeWithPrefix, dbRange, hs]

theorem holds_of_rep {v : ContractVersion} {m : Raw CoreVal} {s : Core.State} (h : CoreRep m (coreAt v s))
    (hn : (s.tradeInfos.map (·.1)).Nodup) (hf : ∀ e ∈ s.tradeInfos, DenomFits e.1.1) : CoreHolds v m s :=
  core_rep_same h (rep_coreRaw v hn hf)

/-- From matching results to the two statements about them. -/
theorem matches_split {V : Type} [CoreCell V] {v : ContractVersion} {x : Res (CoreOutOf V)} {y : Res Core.Out} (h : CoreMatches v x y) :
    (∀ e, x = .error e ↔ y = .error e) ∧
    ∀ s' ms, y = .ok (s', ms) → ∃ m', x = .ok (m', ms) ∧ CoreRep m' (coreAt v s') := by
  cases x with
  | error e =>
    cases y with
    | error e' =>
      have : e = e' := h
      subst this
      exact ⟨fun _ => by simp, fun s' ms h => by cases h⟩
    | ok o => exact h.elim
  | ok o =>
    obtain ⟨m', ms'⟩ := o
    cases y with
    | error e' => exact h.elim
    | ok o =>
      obtain ⟨s', ms⟩ := o
      obtain ⟨rfl, h2⟩ := h
      refine ⟨fun _ => by simp, fun s'' ms'' h => ?_⟩
      cases h
      exact ⟨m', rfl, h2⟩

/-- The version record of the core contract. -/
def coreVersion : ContractVersion := { contract := "crates.io:ibcx-core", version := "0.1.0" }

/-- A mint, two trade routes, a rebalance with a sale and a purchase, and a collection of the fees. -/
def coreHistory : List Core.Call :=
  [⟨Demo.env 1000, Demo.mintInfo, .mint 10000 none none⟩] ++ swapHistory ++ [sellAtom 2000, buyIon 2030] ++
    [⟨Demo.env 3000, ⟨"carol", []⟩, .realize⟩]

/-- The byte storage after creation and this history. -/
def coreStored : Res CoreOut := do
  let (m, _) ← coreInstantiate coreVersion (Demo.env 1000) Demo.inst
  let (m, _) ← coreReply m 0 (some "factory/core/ibcx")
  .ok (coreRun m coreHistory)

/-- A parser that knows three versions, for the example. -/
def oneDot (t : String) : Option Version :=
  if t = "0.1.0" then some ⟨0, 1, 0, [], []⟩
  else if t = "0.0.9" then some ⟨0, 0, 9, [], []⟩
  else if t = "0.2.0" then some ⟨0, 2, 0, [], []⟩
  else none

/-- **C97 (one message).** On the byte storage of a reachable state, a message succeeds or fails with the same error as
on the state, sends the same messages, and leaves a byte storage that holds the new state: nothing that another handler
reads is lost, left behind or overwritten. -/
theorem C97_message (v : ContractVersion) {s : Core.State} (hr : Core.Reachable s) (hf : StateFits s) (call : Core.Call)
    (hs : CoreSendable call.msg) :
    (∀ e, coreExecute (coreRaw v s) call.env call.info call.msg = .error e ↔
      Core.execute s call.env call.info call.msg = .error e) ∧
    ∀ s' ms, Core.execute s call.env call.info call.msg = .ok (s', ms) →
      ∃ m', coreExecute (coreRaw v s) call.env call.info call.msg = .ok (m', ms) ∧ CoreHolds v m' s' := by
  have hm := core_execute_matches (rep_coreRaw v (infos_nodup hr) hf.2) (coreReads_val s) hf.1 call.env call.info
    call.msg hs (fun _ _ => coreReads_val _)
  refine ⟨(matches_split hm).1, ?_⟩
  intro s' ms h
  obtain ⟨m', h1, h2⟩ := (matches_split hm).2 s' ms h
  have hstep : (Core.step s call).1 = s' := by simp only [Core.step, h]
  have hr' : Core.Reachable s' := by
    rw [← hstep]
    exact hr.run [call]
  have hf' := fits_step hf (infos_nodup hr) hs
  rw [hstep] at hf'
  exact ⟨m', h1, holds_of_rep h2 (infos_nodup hr') hf'.2⟩

/-- A sale of uatom: the same swap on the bytes. A stranger's release is refused. -/
example : Core.Reachable (Core.run Demo.s1 swapHistory).1 ∧ StateFits (Core.run Demo.s1 swapHistory).1 ∧
    CoreSendable (sellAtom 2000).msg ∧
    (coreExecute (coreRaw coreVersion (Core.run Demo.s1 swapHistory).1) (sellAtom 2000).env (sellAtom 2000).info
      (sellAtom 2000).msg).map (·.2) = .ok [.swapExactOut "core" [⟨1, "uosmo"⟩] ⟨"uosmo", 900⟩ 901] ∧
    (coreExecute (coreRaw coreVersion (Core.run Demo.s1 swapHistory).1) (Demo.env 2000) ⟨"bob", []⟩
      (.gov (.release))).map (·.2) = .error .unauthorized :=
  ⟨Demo.s1_reachable.run _, ⟨by decide +kernel, by decide +kernel⟩, by show DenomFits _; decide +kernel,
   by decide +kernel, by decide +kernel⟩

theorem core_instantiate_matches (V : Type) [CoreCell V] (v : ContractVersion) (env : Env) (msg : Core.InstantiateMsg) :
    CoreMatches v (coreInstantiate (V := V) v env msg) (Core.instantiate env msg) := by
  have h0 : CoreRep ([] : Raw V) (fun _ => none) := ⟨by simp, fun _ _ => rfl, fun k h => absurd rfl h⟩
  obtain ⟨m0, e0, h1⟩ := h0.put (p := .version) trivial (.version v)
  simp only [coreInstantiate, Core.instantiate, e0, ok_bind]
  refine .bind _ fun _ _ => .bind _ fun a _ => .bind _ fun _ _ => .bind _ fun g _ => ?_
  obtain ⟨m1, e1, h2⟩ := h1.put (p := .fee) trivial (.fee
    { collector := a, mintFee := msg.fee.mintFee, burnFee := msg.fee.burnFee
      streamingFee := msg.fee.streamingFee.map (·.toState env.now) })
  obtain ⟨m2, e2, h3⟩ := h2.put (p := .config) trivial (.config
    { gov := g, paused := {}, indexDenom := "undefined", reserveDenom := msg.reserveDenom })
  obtain ⟨m3, e3, h4⟩ := h3.put (p := .totalSupply) trivial (.totalSupply 0)
  obtain ⟨m4, e4, h5⟩ := h4.put (p := .indexUnits) trivial (.units msg.indexUnits)
  simp only [e1, e2, e3, e4, ok_bind]
  refine ⟨rfl, h5.congr ?_⟩
  intro q _
  cases q <;> simp [coreAt, KV.get]

theorem core_reply_matches {V : Type} [CoreCell V] {v : ContractVersion} {m : Raw V} {s : Core.State}
    (h : CoreRep m (coreAt v s)) (rd : CoreReads V s) (id : Nat) (d : Option Denom) : CoreMatches v (coreReply m id d) (Core.reply s id d) := by
  unfold coreReply Core.reply
  split
  · cases d with
    | none => exact rfl
    | some d =>
      simp only [h.config rd.config, ok_bind]
      obtain ⟨m', e, h'⟩ := h.putConfig { s.config with indexDenom := d }
      simp only [e, ok_bind]
      exact ⟨rfl, h'⟩
  · exact rfl

/-- **C97 (creation).** Creating the contract on bytes succeeds or fails with the same error as creating the abstract
one; the storage then holds the initial state, and so it does after the reply with the denom. -/
theorem C97_creation (v : ContractVersion) (env : Env) (msg : Core.InstantiateMsg) :
    (∀ e, coreInstantiate (V := CoreVal) v env msg = .error e ↔ Core.instantiate env msg = .error e) ∧
    ∀ s ms, Core.instantiate env msg = .ok (s, ms) → ∃ m, coreInstantiate v env msg = .ok (m, ms) ∧ CoreHolds v m s ∧
      ∀ id d, (∀ e, coreReply m id d = .error e ↔ Core.reply s id d = .error e) ∧
        ∀ s' ms', Core.reply s id d = .ok (s', ms') → ∃ m', coreReply m id d = .ok (m', ms') ∧ CoreHolds v m' s' := by
  have hm := matches_split (core_instantiate_matches CoreVal v env msg)
  refine ⟨hm.1, ?_⟩
  intro s ms h
  obtain ⟨m, h1, h2⟩ := hm.2 s ms h
  obtain ⟨_, _, _, _, _, _, rfl, _⟩ := Core.instantiate_eq_ok.1 h
  refine ⟨m, h1, holds_of_rep h2 (by simp) (by simp), ?_⟩
  intro id d
  have hx := matches_split (core_reply_matches h2 (coreReads_val _) id d)
  refine ⟨hx.1, ?_⟩
  intro s' ms' h'
  obtain ⟨m', g1, g2⟩ := hx.2 s' ms' h'
  obtain ⟨_, d', _, rfl, _⟩ := Core.reply_eq_ok.1 h'
  exact ⟨m', g1, holds_of_rep g2 (by simp) (by simp)⟩

/-- The creation of the example contract leaves five entries; the reply changes one of them. -/
example : (Core.instantiate (Demo.env 1000) Demo.inst).isOk = true ∧
    (coreInstantiate (V := CoreVal) coreVersion (Demo.env 1000) Demo.inst).map (fun o => o.1.length) = .ok 5 ∧
    ((coreInstantiate (V := CoreVal) coreVersion (Demo.env 1000) Demo.inst).bind fun o =>
      coreReply o.1 0 (some "factory/core/ibcx")).map (fun o => o.1.length) = .ok 5 := by
  refine ⟨?_, ?_, ?_⟩ <;> decide +kernel

/-- **C97 (histories).** Starting from the byte storage after creation, every history of sendable messages sends the same
messages as the abstract contract and ends with a byte storage that holds its state. -/
theorem C97_history (v : ContractVersion) {env : Env} {msg : Core.InstantiateMsg} {s0 s1 : Core.State} {ms ms' : List Msg}
    {d : Denom} (h0 : Core.instantiate env msg = .ok (s0, ms)) (h1 : Core.reply s0 0 (some d) = .ok (s1, ms'))
    (hd : DenomFits msg.reserveDenom) :
    ∃ m0 m1, coreInstantiate v env msg = .ok (m0, ms) ∧ coreReply m0 0 (some d) = .ok (m1, ms') ∧
      ∀ calls : List Core.Call, (∀ call ∈ calls, CoreSendable call.msg) →
        (coreRun m1 calls).2 = (Core.run s1 calls).2 ∧ CoreHolds v (coreRun m1 calls).1 (Core.run s1 calls).1 := by
  obtain ⟨m0, e0, r0⟩ := (matches_split (core_instantiate_matches CoreVal v env msg)).2 _ _ h0
  obtain ⟨m1, e1, r1⟩ := (matches_split (core_reply_matches r0 (coreReads_val s0) 0 (some d))).2 _ _ h1
  refine ⟨m0, m1, e0, e1, ?_⟩
  have hr : Core.Reachable s1 := ⟨s1, [], ⟨env, msg, s0, ms, d, ms', h0, h1⟩, rfl⟩
  have hf : StateFits s1 := by
    obtain ⟨_, _, _, _, _, _, rfl, _⟩ := Core.instantiate_eq_ok.1 h0
    obtain ⟨_, d', _, rfl, _⟩ := Core.reply_eq_ok.1 h1
    exact ⟨hd, by simp⟩
  intro calls hs
  suffices main : ∀ (s : Core.State) (m : Raw CoreVal), Core.Reachable s → StateFits s → CoreRep m (coreAt v s) →
      (coreRun m calls).2 = (Core.run s calls).2 ∧ Core.Reachable (Core.run s calls).1 ∧ StateFits (Core.run s calls).1 ∧
        CoreRep (coreRun m calls).1 (coreAt v (Core.run s calls).1) by
    obtain ⟨g1, g2, g3, g4⟩ := main s1 m1 hr hf r1
    exact ⟨g1, holds_of_rep g4 (infos_nodup g2) g3.2⟩
  clear r1 e1 hr hf h1
  induction calls with
  | nil => exact fun s m hr hf h => ⟨rfl, hr, hf, h⟩
  | cons call calls ih =>
    intro s m hr hf h
    have hsc := hs call (by simp)
    have hm := core_execute_matches h (coreReads_val s) hf.1 call.env call.info call.msg hsc
      (fun _ _ => coreReads_val _)
    have hstep : (coreStep m call).2 = (Core.step s call).2 ∧
        CoreRep (coreStep m call).1 (coreAt v (Core.step s call).1) := by
      unfold coreStep Core.step
      cases h1 : coreExecute m call.env call.info call.msg with
      | error e =>
        cases h2 : Core.execute s call.env call.info call.msg with
        | error e' => exact ⟨rfl, h⟩
        | ok o => rw [h1, h2] at hm; exact hm.elim
      | ok x =>
        cases h2 : Core.execute s call.env call.info call.msg with
        | error e' => rw [h1, h2] at hm; exact hm.elim
        | ok o =>
          rw [h1, h2] at hm
          exact hm
    obtain ⟨g1, g2, g3, g4⟩ := ih (fun x hx => hs x (by simp [hx])) (Core.step s call).1 (coreStep m call).1
      (hr.run [call]) (fits_step hf (infos_nodup hr) hsc) hstep.2
    refine ⟨?_, g2, g3, g4⟩
    show (coreStep m call).2 ++ (coreRun (coreStep m call).1 calls).2 = (Core.step s call).2 ++ _
    rw [hstep.1, g1]
    rfl

/-- A mint, a rebalance with two trades and a collection of fees. -/
example : (∀ call ∈ coreHistory, CoreSendable call.msg) ∧ DenomFits Demo.inst.reserveDenom ∧
    (coreStored.map (·.2)) = .ok (Demo.mintMsgs ++ [.swapExactOut "core" [⟨1, "uosmo"⟩] ⟨"uosmo", 900⟩ 901,
      .swapExactIn "core" [⟨2, "uion"⟩] ⟨"uosmo", 500⟩ 499]) := by
  refine ⟨?_, by decide +kernel, by decide +kernel⟩
  intro call hc
  simp only [coreHistory, swapHistory, List.cons_append, List.nil_append, List.mem_cons, List.not_mem_nil, or_false] at hc
  rcases hc with rfl | rfl | rfl | rfl | rfl | rfl | rfl
  all_goals first
    | trivial
    | (show DenomFits _; decide +kernel)

theorem core_get_congr {m m' : Raw CoreVal} (h : ∀ k, m.get k = m'.get k) (p : CorePlace) : coreGet m p = coreGet m' p := by
  unfold coreGet
  simp only [h]

theorem core_units_at (s : Core.State) (t : Nat) :
    coreUnitsAt s.fee s.indexUnits s.totalSupply t = Core.unitsAt s t := by
  unfold coreUnitsAt Core.unitsAt
  cases s.fee.streamingFee with
  | none => rfl
  | some sf => simp only

section
open Ibcx.Core
variable {V : Type} [CoreCell V] {v : ContractVersion} {m : Raw V} {s : Core.State}

theorem get_supply (h : CoreRep m (coreAt v s)) (rd : CoreReads V s) : coreGetTotalSupply m = .ok (getTotalSupply s) := h.supply rd.supply

theorem get_config (h : CoreRep m (coreAt v s)) (rd : CoreReads V s) (env : Env) (time : Option Nat) :
    coreGetConfig m env time = getConfig s env time := by
  unfold coreGetConfig getConfig
  dsimp only
  generalize require (time.getD env.now * 10 ^ 9 < 2 ^ 64) .overflow = x
  rw [h.config rd.config, ok_bind]
  cases x with
  | error e => rfl
  | ok u => rw [ok_bind, ok_bind, h.mayPending rd.pending, ok_bind]

theorem get_fee (h : CoreRep m (coreAt v s)) (rd : CoreReads V s) (env : Env) (time : Option Nat) :
    coreGetFee m env time = getFee s env time := by
  simp only [coreGetFee, getFee, h.supply rd.supply, h.fee rd.fee, h.units rd.units, ok_bind]
  cases s.fee.streamingFee with
  | none => rfl
  | some sf => simp only

theorem get_portfolio (h : CoreRep m (coreAt v s)) (rd : CoreReads V s) (env : Env) (time : Option Nat) :
    coreGetPortfolio m env time = getPortfolio s env time := by
  simp only [coreGetPortfolio, getPortfolio, h.supply rd.supply, h.fee rd.fee, h.units rd.units, ok_bind, core_units_at]

theorem get_rebalance (h : CoreRep m (coreAt v s)) (rd : CoreReads V s) : coreGetRebalance m = .ok (getRebalance s) := h.mayRebalance rd.rebalance

theorem get_trade_info (h : CoreRep m (coreAt v s)) (rd : CoreReads V s) (i o : Denom) (hi : DenomFits i) :
    coreGetTradeInfo m i o = .ok (getTradeInfo s i o) := h.mayInfo rd.info hi o

theorem simulate_mint (h : CoreRep m (coreAt v s)) (rd : CoreReads V s) (env : Env) (amount : Nat) (funds : Option (List Coin)) (time : Option Nat) :
    coreSimulateMint m env amount funds time = simulateMint s env amount funds time := by
  simp only [coreSimulateMint, simulateMint, h.supply rd.supply, h.fee rd.fee, h.units rd.units, ok_bind, core_units_at]

theorem simulate_burn (h : CoreRep m (coreAt v s)) (rd : CoreReads V s) (env : Env) (amount : Nat) (time : Option Nat) :
    coreSimulateBurn m env amount time = simulateBurn s env amount time := by
  simp only [coreSimulateBurn, simulateBurn, h.supply rd.supply, h.fee rd.fee, h.units rd.units, ok_bind, core_units_at]

end

/-- **C97 (queries).** On a byte storage that holds a reachable state every query answers as on the state. -/
theorem C97_queries {v : ContractVersion} {m : Raw CoreVal} {s : Core.State} (hr : Core.Reachable s) (hf : StateFits s)
    (h : CoreHolds v m s) :
    coreGetTotalSupply m = .ok (Core.getTotalSupply s) ∧
    (∀ env time, coreGetConfig m env time = Core.getConfig s env time) ∧
    (∀ env time, coreGetFee m env time = Core.getFee s env time) ∧
    (∀ env time, coreGetPortfolio m env time = Core.getPortfolio s env time) ∧
    coreGetRebalance m = .ok (Core.getRebalance s) ∧
    (∀ i o, DenomFits i → coreGetTradeInfo m i o = .ok (Core.getTradeInfo s i o)) ∧
    (∀ env amount funds time, coreSimulateMint m env amount funds time = Core.simulateMint s env amount funds time) ∧
    ∀ env amount time, coreSimulateBurn m env amount time = Core.simulateBurn s env amount time := by
  have hrep := rep_coreRaw v (infos_nodup hr) hf.2
  have hg : ∀ p, coreGet m p = coreGet (coreRaw v s) p := core_get_congr h.1
  have may : ∀ (α : Type), @coreMay CoreVal α m = @coreMay CoreVal α (coreRaw v s) := by
    intro α
    funext p f
    unfold coreMay
    rw [hg]
  have load : ∀ (α : Type), @coreLoad CoreVal α m = @coreLoad CoreVal α (coreRaw v s) := by
    intro α
    funext p f
    unfold coreLoad
    rw [may]
  refine ⟨?_, fun env time => ?_, fun env time => ?_, fun env time => ?_, ?_, fun i o hi => ?_, fun env a f t => ?_,
    fun env a t => ?_⟩
  · rw [← get_supply hrep (coreReads_val s)]
    unfold coreGetTotalSupply
    rw [load]
  · rw [← get_config hrep (coreReads_val s)]
    unfold coreGetConfig
    rw [load, may]
  · rw [← get_fee hrep (coreReads_val s)]
    unfold coreGetFee
    simp only [load]
  · rw [← get_portfolio hrep (coreReads_val s)]
    unfold coreGetPortfolio
    simp only [load]
  · rw [← get_rebalance hrep (coreReads_val s)]
    unfold coreGetRebalance
    rw [may]
  · rw [← get_trade_info hrep (coreReads_val s) i o hi]
    unfold coreGetTradeInfo
    rw [may]
  · rw [← simulate_mint hrep (coreReads_val s)]
    unfold coreSimulateMint
    simp only [load]
  · rw [← simulate_burn hrep (coreReads_val s)]
    unfold coreSimulateBurn
    simp only [load]

/-- The supply, a trade route and the portfolio, read from the bytes. -/
example : Core.Reachable (Core.run Demo.s1 swapHistory).1 ∧ StateFits (Core.run Demo.s1 swapHistory).1 ∧
    CoreHolds coreVersion (coreRaw coreVersion (Core.run Demo.s1 swapHistory).1) (Core.run Demo.s1 swapHistory).1 ∧
    coreGetTotalSupply (coreRaw coreVersion (Core.run Demo.s1 swapHistory).1) = .ok 10000 ∧
    coreGetTradeInfo (coreRaw coreVersion (Core.run Demo.s1 swapHistory).1) "uatom" "uosmo" =
      .ok (some ⟨[⟨1, "uosmo"⟩], 60, 1000, none⟩) :=
  ⟨Demo.s1_reachable.run _, ⟨by decide +kernel, by decide +kernel⟩, ⟨fun _ => rfl, fun _ _ _ _ => rfl⟩,
   by decide +kernel, by decide +kernel⟩

/-- **C97 (migration).** Migrating the byte storage of a reachable state is accepted exactly when the version rule accepts
it, and only the version record changes: all other keys hold the same state. -/
theorem C97_migration (parse : String → Option Version) {v : ContractVersion} {s : Core.State} (hr : Core.Reachable s)
    (hf : StateFits s) (name version : String) (force : Option Bool) :
    (∀ e, coreMigrate parse (coreRaw v s) name version force = .error e ↔
      Iface.migrate parse (some v) name version force = .error e) ∧
    ∀ w, Iface.migrate parse (some v) name version force = .ok (some w) →
      ∃ m', coreMigrate parse (coreRaw v s) name version force = .ok m' ∧ CoreHolds w m' s := by
  have hrep := rep_coreRaw v (infos_nodup hr) hf.2
  have key : ∀ w, ∃ m', corePut (coreRaw v s) .version (.version w) = .ok m' ∧ CoreHolds w m' s := by
    intro w
    obtain ⟨m', h1, h2⟩ := hrep.putVersion w
    exact ⟨m', h1, holds_of_rep h2 (infos_nodup hr) hf.2⟩
  obtain ⟨m', e1, h1⟩ := key { contract := name, version := version }
  unfold coreMigrate Iface.migrate
  split
  · simp only [hrep.version rfl, ok_bind, storeVersion, require]
    by_cases hn : v.contract = name
    · cases hp : parse v.version with
      | none => simp [hn, Bind.bind, Except.bind]
      | some cv =>
        cases hq : parse version with
        | none => simp [hn, Bind.bind, Except.bind]
        | some nv =>
          by_cases hlt : cmpVersion cv nv = .lt
          · simp only [hn, hlt, if_true, ok_bind, e1]
            simp only [ne_eq, not_true_eq_false, if_false]
            refine ⟨fun e => by simp, ?_⟩
            intro w hw
            cases hw
            exact ⟨m', rfl, h1⟩
          · simp [hn, hlt, Bind.bind, Except.bind]
    · simp [hn, Bind.bind, Except.bind]
  · rw [e1]
    refine ⟨fun e => by simp, ?_⟩
    intro w hw
    cases hw
    exact ⟨m', rfl, h1⟩

/-- An older version is refused; a newer one is written to the bytes. -/
example : Core.Reachable (Core.run Demo.s1 swapHistory).1 ∧ StateFits (Core.run Demo.s1 swapHistory).1 ∧
    (coreMigrate oneDot (coreRaw coreVersion (Core.run Demo.s1 swapHistory).1) "crates.io:ibcx-core" "0.0.9" none).map
      (·.length) = .error .generic ∧
    coreMigrate oneDot (coreRaw coreVersion (Core.run Demo.s1 swapHistory).1) "crates.io:ibcx-core" "0.2.0" none =
      .ok (coreRaw ⟨"crates.io:ibcx-core", "0.2.0"⟩ (Core.run Demo.s1 swapHistory).1) :=
  ⟨Demo.s1_reachable.run _, ⟨by decide +kernel, by decide +kernel⟩, by decide +kernel, by decide +kernel⟩

/-- **C97 (long denoms).** A trade route from a denom longer than 65535 bytes is never stored: the key cannot be built. -/
theorem C97_long_denoms (m : Raw CoreVal) (env : Env) (info : Info) {d : Denom} (hd : ¬ DenomFits d)
    (routes : List SwapRoute) (cooldown max : Nat) (out : CoreOut) :
    coreExecute m env info (.gov (.updateTradeInfo d routes cooldown max)) ≠ .ok out := by
  have hk : ∀ o, (CorePlace.tradeInfo d o).slot.key = .error .panic := by
    intro o
    simp only [CorePlace.slot, Slot.key]
    rw [if_neg]
    rintro ⟨_, h⟩
    exact hd (h _ (by simp))
  intro h
  simp only [coreExecute, Core.collectsFirst, coreDispatch, coreGov, coreUpdateTradeInfo, corePut, hk] at h
  obtain ⟨_, _, h⟩ := bind_eq_ok.1 h
  obtain ⟨_, _, h⟩ := bind_eq_ok.1 h
  obtain ⟨_, _, h⟩ := bind_eq_ok.1 h
  obtain ⟨_, _, h⟩ := bind_eq_ok.1 h
  obtain ⟨_, h, _⟩ := bind_eq_ok.1 h
  obtain ⟨_, h, _⟩ := bind_eq_ok.1 h
  cases h

/-- The hypotheses of the histories hold here; the bytes give the mint, both swaps, and the state of the rebalance. -/
example : (∀ call ∈ coreHistory, CoreSendable call.msg) ∧ DenomFits Demo.inst.reserveDenom ∧
    (coreStored.map (·.2)) = .ok (Demo.mintMsgs ++ [.swapExactOut "core" [⟨1, "uosmo"⟩] ⟨"uosmo", 900⟩ 901,
      .swapExactIn "core" [⟨2, "uion"⟩] ⟨"uosmo", 500⟩ 499]) ∧
    (coreStored.bind fun o => coreGetTotalSupply o.1) = .ok 10000 ∧
    (coreStored.bind fun o => coreGetTradeInfo o.1 "uatom" "uosmo") =
      .ok (some ⟨[⟨1, "uosmo"⟩], 60, 1000, some 2000⟩) ∧
    (coreStored.map fun o => o.1.get (textBytes "total_supply")) = .ok (some (.totalSupply 10000)) := by
  refine ⟨?_, by decide +kernel, by decide +kernel, by decide +kernel, by decide +kernel, by decide +kernel⟩
  intro call hc
  simp only [coreHistory, swapHistory, List.cons_append, List.nil_append, List.mem_cons, List.not_mem_nil, or_false] at hc
  rcases hc with rfl | rfl | rfl | rfl | rfl | rfl | rfl
  all_goals first
    | trivial
    | (show DenomFits _; decide +kernel)

/-- A reachable state in the middle of a rebalance meets the hypotheses of the single message, query and migration
theorems; an older version is refused and a newer one replaces the record alone. -/
example : Core.Reachable (Core.run Demo.s1 swapHistory).1 ∧ StateFits (Core.run Demo.s1 swapHistory).1 ∧
    (coreExecute (coreRaw coreVersion (Core.run Demo.s1 swapHistory).1) (sellAtom 2000).env (sellAtom 2000).info
      (sellAtom 2000).msg).map (·.2) = .ok [.swapExactOut "core" [⟨1, "uosmo"⟩] ⟨"uosmo", 900⟩ 901] ∧
    (coreExecute (coreRaw coreVersion (Core.run Demo.s1 swapHistory).1) (Demo.env 2000) ⟨"bob", []⟩
      (.gov (.release))).map (·.2) = .error .unauthorized ∧
    (coreMigrate oneDot (coreRaw coreVersion (Core.run Demo.s1 swapHistory).1) "crates.io:ibcx-core" "0.0.9" none).map
      (·.length) = .error .generic ∧
    coreMigrate oneDot (coreRaw coreVersion (Core.run Demo.s1 swapHistory).1) "crates.io:ibcx-core" "0.2.0" none =
      .ok (coreRaw ⟨"crates.io:ibcx-core", "0.2.0"⟩ (Core.run Demo.s1 swapHistory).1) :=
  ⟨Demo.s1_reachable.run _, ⟨by decide +kernel, by decide +kernel⟩, by decide +kernel, by decide +kernel,
   by decide +kernel, by decide +kernel⟩

/-- There are denoms too long for a key. -/
example : ¬ DenomFits (String.ofList (List.replicate 65536 'a')) := by
  have h : (textBytes (String.ofList (List.replicate 65536 'a'))).length = 65536 := by
    rw [textBytes, String.toList_ofList, List.length_flatMap, List.map_replicate, List.sum_replicate]
    rfl
  rw [DenomFits, h]
  omega

end Ibcx.Props
