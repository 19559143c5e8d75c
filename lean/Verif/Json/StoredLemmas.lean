import Verif.Json.Answers
import Verif.Json.MessagesLemmas
import Verif.Airdrop.TextLemmas
/-! # Every stored value and every answer is read back from its JSON -/

namespace Ibcx.Json
open Ibcx Ibcx.Storage

theorem versionRecord_faithful : versionRecord.Faithful := by
  rintro ⟨c, v⟩ _
  simp [versionRecord, fields, once, req, field, text_read]

theorem optDecimal_faithful : decimal.opt.Faithful := opt_faithful decimal_solid decimal_faithful

theorem pauseInfo_faithful : pauseInfo.Faithful := by
  rintro ⟨p, e⟩ h
  have k := optUint_faithful 64 e h
  unfold pauseInfo
  dsimp only
  read_fields

theorem config_faithful : config.Faithful := by
  rintro ⟨g, p, i, r⟩ h
  have k := pauseInfo_faithful p h
  unfold config
  dsimp only
  read_fields

theorem streamingFee_faithful : streamingFee.Faithful := by
  rintro ⟨r, c, f, l⟩ ⟨h1, h2, h3⟩
  have k1 := decimal_faithful r h1
  have k2 := list_faithful coin_faithful c h2
  have k3 := uint_faithful 64 l h3
  unfold streamingFee
  dsimp only
  read_fields

theorem streamingFee_solid : streamingFee.Solid := fun _ h => by cases h

theorem fee_faithful : fee.Faithful := by
  rintro ⟨c, m, b, s⟩ ⟨h1, h2, h3⟩
  have k1 := optDecimal_faithful m h1
  have k2 := optDecimal_faithful b h2
  have k3 := opt_faithful streamingFee_solid streamingFee_faithful s h3
  unfold fee
  dsimp only
  read_fields

theorem rebalance_faithful : rebalance.Faithful := by
  rintro ⟨m, d, i⟩ ⟨h1, h2⟩
  have k1 := units_faithful d h1
  have k2 := units_faithful i h2
  unfold rebalance
  dsimp only
  read_fields

theorem rebalance_solid : rebalance.Solid := fun _ h => by cases h

theorem tradeInfo_faithful : tradeInfo.Faithful := by
  rintro ⟨r, c, m, l⟩ ⟨h1, h2, h3, h4⟩
  have k1 := list_faithful swapRoute_faithful r h1
  have k2 := uint_faithful 64 c h2
  have k3 := u128_faithful m h3
  have k4 := optUint_faithful 64 l h4
  unfold tradeInfo
  dsimp only
  read_fields

theorem openDrop_faithful : openDrop.Faithful := by
  rintro ⟨k, cr, d, t, c, r, l, ca, cl⟩ ⟨h0, h1, h2, h3, h4⟩
  dsimp only at h0
  subst h0
  have k1 := u128_faithful t h1
  have k2 := u128_faithful c h2
  have k3 := uint_faithful 64 ca h3
  have k4 := optUint_faithful 64 cl h4
  unfold openDrop
  dsimp only
  read_fields

theorem bearerDrop_faithful : bearerDrop.Faithful := by
  rintro ⟨k, cr, d, t, c, r, l, ca, cl⟩ ⟨h0, h1, h2, h3, h4⟩
  cases k with
  | openAirdrop => exact absurd rfl h0
  | bearer s p =>
    have k0 := binary_faithful p trivial
    have k1 := u128_faithful t h1
    have k2 := u128_faithful c h2
    have k3 := uint_faithful 64 ca h3
    have k4 := optUint_faithful 64 cl h4
    unfold bearerDrop
    dsimp only
    read_fields

theorem drop_faithful : drop.Faithful := by
  rintro ⟨k, cr, d, t, c, r, l, ca, cl⟩ ⟨h1, h2, h3, h4⟩
  cases k with
  | openAirdrop =>
    have k := openDrop_faithful ⟨.openAirdrop, cr, d, t, c, r, l, ca, cl⟩ ⟨rfl, h1, h2, h3, h4⟩
    read_variant
  | bearer s p =>
    have k := bearerDrop_faithful ⟨.bearer s p, cr, d, t, c, r, l, ca, cl⟩ ⟨fun h => (by cases h), h1, h2, h3, h4⟩
    read_variant

/-! ## Answers -/

theorem configResp_faithful : configResp.Faithful := by
  rintro ⟨g, e, p, i, r⟩ h
  have k := pauseInfo_faithful p h
  unfold configResp
  dsimp only
  read_fields

theorem portfolioResp_faithful : portfolioResp.Faithful := by
  rintro ⟨t, a, u⟩ ⟨h1, h2, h3⟩
  have k1 := u128_faithful t h1
  have k2 := list_faithful coin_faithful a h2
  have k3 := units_faithful u h3
  unfold portfolioResp
  dsimp only
  read_fields

theorem rebalanceResp_faithful : rebalanceResp.Faithful := by
  intro r h
  have k := opt_faithful rebalance_solid rebalance_faithful r h
  refine read_then (record_exact rfl (by decide)) ?_
  exact optional_here rfl k

theorem tradePayload_faithful : tradePayload.Faithful := by
  rintro ⟨i, o, r, c, m, l⟩ ⟨h1, h2, h3, h4⟩
  have k1 := list_faithful swapRoute_faithful r h1
  have k2 := uint_faithful 64 c h2
  have k3 := u128_faithful m h3
  have k4 := optUint_faithful 64 l h4
  unfold tradePayload
  dsimp only
  read_fields

theorem tradePayload_solid : tradePayload.Solid := fun _ h => by cases h

theorem tradeInfoResp_faithful : tradeInfoResp.Faithful := by
  intro r h
  have k := opt_faithful tradePayload_solid tradePayload_faithful r h
  refine read_then (record_exact rfl (by decide)) ?_
  exact optional_here rfl k

theorem simMintResp_faithful : simMintResp.Faithful := by
  rintro ⟨t, a, u⟩ ⟨h1, h2, h3⟩
  have k1 := u128_faithful t h1
  have k2 := list_faithful coin_faithful a h2
  have k3 := list_faithful coin_faithful u h3
  unfold simMintResp
  dsimp only
  read_fields

theorem simBurnResp_faithful : simBurnResp.Faithful := by
  rintro ⟨t, a⟩ ⟨h1, h2⟩
  have k1 := u128_faithful t h1
  have k2 := list_faithful coin_faithful a h2
  unfold simBurnResp
  dsimp only
  read_fields

theorem hexBytes_faithful : hexBytes.Faithful := by
  intro b _
  have h : Airdrop.hexDecode (hexEncode b) = .ok b := Airdrop.hexDecode_hexText b
  show (match Airdrop.hexDecode (hexEncode b) with | .ok b => some b | .error _ => none) = some b
  rw [h]

theorem dropResp_faithful : dropResp.Faithful := by
  rintro ⟨n, k, cr, d, t, c, r, l, ca, cl⟩ ⟨h0, h1, h2, h3, h4⟩
  have k0 := uint_faithful 64 n h0
  have k1 := u128_faithful t h1
  have k2 := u128_faithful c h2
  have k3 := uint_faithful 64 ca h3
  have k4 := optUint_faithful 64 cl h4
  cases k with
  | openAirdrop => read_variant
  | bearer s p =>
    have k5 := hexBytes_faithful p trivial
    read_variant

theorem claimResp_faithful : claimResp.Faithful := by
  rintro ⟨i, a, k⟩ ⟨h1, h2⟩
  have k1 := uint_faithful 64 i h1
  have k2 := u128_faithful a h2
  unfold claimResp
  dsimp only
  read_fields

theorem verifyResp_faithful : verifyResp.Faithful := by
  rintro ⟨v, r⟩ _
  unfold verifyResp
  dsimp only
  read_fields

theorem labelResp_faithful : labelResp.Faithful := by
  rintro ⟨c, l, i⟩ h
  have k1 := uint_faithful 64 i h
  unfold labelResp
  dsimp only
  read_fields

theorem zapMintResp_faithful : zapMintResp.Faithful := by
  rintro ⟨t, a, u⟩ ⟨h1, h2, h3⟩
  have k1 := u128_faithful t h1
  have k2 := list_faithful coin_faithful a h2
  have k3 := coin_faithful u h3
  unfold zapMintResp
  dsimp only
  read_fields

theorem zapBurnResp_faithful : zapBurnResp.Faithful := by
  rintro ⟨t, a, u⟩ ⟨h1, h2, h3⟩
  have k1 := u128_faithful t h1
  have k2 := list_faithful coin_faithful a h2
  have k3 := coin_faithful u h3
  unfold zapBurnResp
  dsimp only
  read_fields

end Ibcx.Json
