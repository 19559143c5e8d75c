import Verif.Json.Pools
import Verif.Json.SchemaLemmas2
import Verif.Spec.Pools
/-!
# The answers about pools follow their tables
-/

namespace Ibcx.Json
open Ibcx Ibcx.Spec Ibcx.Pool

theorem parseUnsigned_toString {bits n : Nat} (h : n < 2 ^ bits) : parseUnsigned bits (toString n).toList = some n := by
  rw [parseUnsigned_iff]
  exact ⟨_, .inl rfl, digits_ne_nil n, digits_all n, (value_digits n).symm, h⟩

theorem u256_faithful : u256.Faithful := fun n h => parseUnsigned_toString h

theorem u256_bounded : u256.Bounded := by
  intro j n h
  cases j with
  | str s =>
    obtain ⟨ds, _, _, _, _, hn⟩ := (parseUnsigned_iff 256 _ _).1 h
    exact hn
  | _ => cases h

theorem bigCoin_faithful : bigCoin.Faithful := by
  rintro ⟨d, n⟩ h
  have h1 := u256_faithful n h
  have h2 := text_faithful d trivial
  simp [bigCoin, record, fields, only, req, field, h1, h2]

theorem poolAsset_faithful : poolAsset.Faithful := by
  rintro ⟨d, n, w⟩ ⟨h1, h2⟩
  have k1 := bigCoin_faithful (d, n) h1
  have k2 := u256_faithful w h2
  simp [poolAsset, record, fields, only, req, field, k1, k2]

theorem bigCoin_bounded : bigCoin.Bounded := by
  rintro j ⟨d, n⟩ h
  obtain ⟨fs, _, h⟩ := Option.bind_eq_some_iff.1 h
  obtain ⟨x, _, h⟩ := Option.bind_eq_some_iff.1 h
  obtain ⟨y, hy, h⟩ := Option.bind_eq_some_iff.1 h
  cases h
  exact req_bounded u256_bounded hy

theorem poolAsset_bounded : poolAsset.Bounded := by
  rintro j ⟨d, n, w⟩ h
  obtain ⟨fs, _, h⟩ := Option.bind_eq_some_iff.1 h
  obtain ⟨x, hx, h⟩ := Option.bind_eq_some_iff.1 h
  obtain ⟨y, hy, h⟩ := Option.bind_eq_some_iff.1 h
  cases h
  exact ⟨req_bounded bigCoin_bounded hx, req_bounded u256_bounded hy⟩

theorem smooth_bounded : smooth.Bounded := by
  rintro j ⟨i, t, s, d⟩ h
  obtain ⟨fs, _, h⟩ := Option.bind_eq_some_iff.1 h
  obtain ⟨x, hx, h⟩ := Option.bind_eq_some_iff.1 h
  obtain ⟨y, hy, h⟩ := Option.bind_eq_some_iff.1 h
  obtain ⟨z, hz, h⟩ := Option.bind_eq_some_iff.1 h
  obtain ⟨w, hw, h⟩ := Option.bind_eq_some_iff.1 h
  cases h
  exact ⟨req_bounded (list_bounded poolAsset_bounded) hx, req_bounded (list_bounded poolAsset_bounded) hy⟩

theorem weightedParams_bounded : weightedParams.Bounded := by
  rintro j ⟨f, e, s⟩ h
  obtain ⟨fs, _, h⟩ := Option.bind_eq_some_iff.1 h
  obtain ⟨x, hx, h⟩ := Option.bind_eq_some_iff.1 h
  obtain ⟨y, hy, h⟩ := Option.bind_eq_some_iff.1 h
  obtain ⟨z, hz, h⟩ := Option.bind_eq_some_iff.1 h
  cases h
  exact ⟨req_bounded decimal_bounded hx, req_bounded decimal_bounded hy, optional_bounded smooth_bounded hz⟩

theorem stableParams_bounded : stableParams.Bounded := by
  rintro j ⟨f, e⟩ h
  obtain ⟨fs, _, h⟩ := Option.bind_eq_some_iff.1 h
  obtain ⟨x, hx, h⟩ := Option.bind_eq_some_iff.1 h
  obtain ⟨y, hy, h⟩ := Option.bind_eq_some_iff.1 h
  cases h
  exact ⟨req_bounded decimal_bounded hx, req_bounded decimal_bounded hy⟩

theorem weightedAnswer_bounded : weightedAnswer.Bounded := by
  rintro j ⟨t, a, i, g, p, s, sh, w⟩ h
  obtain ⟨fs, _, h⟩ := Option.bind_eq_some_iff.1 h
  obtain ⟨x1, h1, h⟩ := Option.bind_eq_some_iff.1 h
  obtain ⟨x2, h2, h⟩ := Option.bind_eq_some_iff.1 h
  obtain ⟨x3, h3, h⟩ := Option.bind_eq_some_iff.1 h
  obtain ⟨x4, h4, h⟩ := Option.bind_eq_some_iff.1 h
  obtain ⟨x5, h5, h⟩ := Option.bind_eq_some_iff.1 h
  obtain ⟨x6, h6, h⟩ := Option.bind_eq_some_iff.1 h
  obtain ⟨x7, h7, h⟩ := Option.bind_eq_some_iff.1 h
  obtain ⟨x8, h8, h⟩ := Option.bind_eq_some_iff.1 h
  cases h
  exact ⟨req_bounded weightedParams_bounded h5, req_bounded (list_bounded poolAsset_bounded) h6,
    req_bounded coin_bounded h7, req_bounded u256_bounded h8⟩

theorem stableAnswer_bounded : stableAnswer.Bounded := by
  rintro j ⟨t, a, i, p, l, f, c, sh, g⟩ h
  obtain ⟨fs, _, h⟩ := Option.bind_eq_some_iff.1 h
  obtain ⟨x1, h1, h⟩ := Option.bind_eq_some_iff.1 h
  obtain ⟨x2, h2, h⟩ := Option.bind_eq_some_iff.1 h
  obtain ⟨x3, h3, h⟩ := Option.bind_eq_some_iff.1 h
  obtain ⟨x4, h4, h⟩ := Option.bind_eq_some_iff.1 h
  obtain ⟨x5, h5, h⟩ := Option.bind_eq_some_iff.1 h
  obtain ⟨x6, h6, h⟩ := Option.bind_eq_some_iff.1 h
  obtain ⟨x7, h7, h⟩ := Option.bind_eq_some_iff.1 h
  obtain ⟨x8, h8, h⟩ := Option.bind_eq_some_iff.1 h
  obtain ⟨x9, h9, h⟩ := Option.bind_eq_some_iff.1 h
  cases h
  exact ⟨req_bounded stableParams_bounded h4, req_bounded (list_bounded coin_bounded) h5,
    req_bounded (list_bounded (uint_bounded 64)) h6, req_bounded coin_bounded h8⟩

theorem concentratedAnswer_bounded : concentratedAnswer.Bounded := fun _ _ _ => trivial

theorem poolResponse_bounded {α : Type} {c : Codec α} (hc : c.Bounded) : (poolResponse c).Bounded := by
  intro j a h
  obtain ⟨fs, _, h⟩ := Option.bind_eq_some_iff.1 h
  obtain ⟨x, hx, h⟩ := Option.bind_eq_some_iff.1 h
  cases h
  exact req_bounded hc hx

/-! ## Tables -/

/-- A field has the form of its codec. -/
local macro "form" : tactic => `(tactic| first
  | exact text_matches | exact u128_matches | exact u256_matches | exact decimal_matches | exact list_matches (uint_matches _)
  | exact coin_matches | exact list_matches coin_matches | assumption)

/-- Goes through the fields of a record. -/
local macro "fields_follow" : tactic => `(tactic| (
  intro fs
  repeat first
    | exact step_end rfl
    | refine step_opt (by form) fun _ => ?_
    | refine step_req (by form) rfl fun _ => ?_))

theorem bigCoin_matches : bigCoin.Matches (.record [("denom", .text), ("amount", .wide)]) :=
  matches_of_follows (follows_record rfl (by fields_follow))

theorem poolAsset_matches : poolAsset.Matches Schema.poolAsset := by
  have := bigCoin_matches
  exact matches_of_follows (follows_record rfl (by fields_follow))

theorem smooth_matches : smooth.Matches (.record
    [("initial_pool_weights", .list Schema.poolAsset), ("target_pool_weights", .list Schema.poolAsset), ("start_time", .text),
      ("duration", .text)]) := by
  have := list_matches poolAsset_matches
  exact matches_of_follows (follows_record rfl (by fields_follow))

theorem weightedParams_matches : weightedParams.Matches (.record
    [("swap_fee", .decimal), ("exit_fee", .decimal),
      ("smooth_weight_change_params", .optional (.record
        [("initial_pool_weights", .list Schema.poolAsset), ("target_pool_weights", .list Schema.poolAsset), ("start_time", .text),
          ("duration", .text)]))]) := by
  have := smooth_matches
  exact matches_of_follows (follows_record rfl (by fields_follow))

theorem poolResponse_matches {α : Type} {c : Codec α} {S : Schema} (h : c.Matches S) (ho : isOption S = false) :
    (poolResponse c).Matches (.record [("pool", S)]) := by
  refine matches_of_follows (follows_record rfl ?_)
  intro fs
  exact step_req h ho fun _ => step_end rfl

theorem weightedAnswer_matches : (poolResponse weightedAnswer).Matches Schema.weightedAnswer := by
  have := weightedParams_matches
  have := list_matches poolAsset_matches
  exact poolResponse_matches (matches_of_follows (follows_record rfl (by fields_follow))) rfl

theorem stableParams_matches : stableParams.Matches (.record [("swap_fee", .decimal), ("exit_fee", .decimal)]) :=
  matches_of_follows (follows_record rfl (by fields_follow))

theorem stableAnswer_matches : (poolResponse stableAnswer).Matches Schema.stableAnswer := by
  have := stableParams_matches
  exact poolResponse_matches (matches_of_follows (follows_record rfl (by fields_follow))) rfl

theorem concentratedAnswer_matches : (poolResponse concentratedAnswer).Matches Schema.concentratedAnswer :=
  poolResponse_matches (matches_of_follows (follows_record rfl (by fields_follow))) rfl

/-! ## Reading an answer -/

theorem answer_iff {α : Type} {c : Codec α} {S : Schema} (h : c.Matches S) (v : Storage.Bytes) (full : Json) :
    Pools.Answer decText S v full ↔ ∃ a, readMsg c v = .ok a ∧ c.enc a = full := by
  constructor
  · rintro ⟨cs, j, hv, hj, hm⟩
    have hm := (norm_iff _ _ _).2 hm
    rw [← h j] at hm
    obtain ⟨a, ha, he⟩ := Option.map_eq_some_iff.1 hm
    exact ⟨a, Props.readMsg_eq_ok.2 ⟨j, (Props.C105_bytes _ _).2 ⟨cs, hv, hj⟩, ha⟩, he⟩
  · rintro ⟨a, ha, he⟩
    obtain ⟨j, hj, ha⟩ := Props.readMsg_eq_ok.1 ha
    obtain ⟨cs, hv, hj⟩ := (Props.C105_bytes _ _).1 hj
    refine ⟨cs, j, hv, hj, (norm_iff _ _ _).1 ?_⟩
    rw [← h j, ha, ← he]
    rfl

theorem poolId_iff (id : String) (n : Nat) : poolId id = .ok n ↔ JsonText.NumberText 64 id.toList n := by
  unfold poolId
  rw [← parseUnsigned_iff]
  cases parseUnsigned 64 id.toList <;> simp

theorem decText_inj {n m : Nat} (hn : n < 2 ^ 128) (hm : m < 2 ^ 128) (h : decText n = decText m) : n = m := by
  have h1 := decimal_faithful n hn
  have h2 := decimal_faithful m hm
  have e : decimal.enc n = decimal.enc m := congrArg Json.str h
  rw [e, h2] at h1
  exact (Option.some.inj h1).symm

theorem assets_inj {as bs : List Asset} (ha : poolAsset.list.Fits as) (hb : poolAsset.list.Fits bs)
    (h : as.map Pools.assetTree = bs.map Pools.assetTree) : as = bs := by
  have h1 := list_faithful poolAsset_faithful as ha
  have h2 := list_faithful poolAsset_faithful bs hb
  have e : poolAsset.list.enc as = poolAsset.list.enc bs := congrArg Json.arr h
  rw [e, h2] at h1
  exact (Option.some.inj h1).symm

/-- A field of a record written in full. -/
theorem mem_fields {fs : List (String × Json)} (hd : (fs.map (·.1)).Nodup) {name : String} {x y : Json} (hx : (name, x) ∈ fs)
    (hy : (name, y) ∈ fs) : x = y := by
  have h1 := (field_some_iff hd).2 hx
  rw [(field_some_iff hd).2 hy] at h1
  exact (Option.some.inj h1).symm

theorem pool_fields {α : Type} {c : Codec α} {a : α} {fs gs : List (String × Json)} (h : c.enc a = .obj fs)
    (he : (poolResponse c).enc a = .obj [("pool", .obj gs)]) : gs = fs := by
  have e : Json.obj [("pool", c.enc a)] = .obj [("pool", .obj gs)] := he
  rw [h] at e
  simp only [Json.obj.injEq, List.cons.injEq, Prod.mk.injEq, true_and, and_true] at e
  exact e.symm

theorem weighted_pool_iff {a : WeightedAnswer} (ha : weightedAnswer.Fits a) (p : Pool) :
    a.pool = .ok p ↔ Pools.Weighted decText ((poolResponse weightedAnswer).enc a) p := by
  obtain ⟨t, ad, i, g, ⟨fee, e, sm⟩, as, sh, w⟩ := a
  obtain ⟨⟨hf, _⟩, has, _⟩ := ha
  have hd : (([("@type", text.enc t), ("address", text.enc ad), ("id", text.enc i),
    ("future_pool_governor", text.enc g), ("pool_params", weightedParams.enc ⟨fee, e, sm⟩),
    ("pool_assets", poolAsset.list.enc as), ("total_shares", coin.enc sh), ("total_weight", u256.enc w)] :
      List (String × Json)).map (·.1)).Nodup := by
    show (["@type", "address", "id", "future_pool_governor", "pool_params", "pool_assets", "total_shares",
      "total_weight"] : List String).Nodup
    decide
  have hd2 : (([("swap_fee", decimal.enc fee), ("exit_fee", decimal.enc e), ("smooth_weight_change_params", smooth.opt.enc sm)] :
      List (String × Json)).map (·.1)).Nodup := by
    show (["swap_fee", "exit_fee", "smooth_weight_change_params"] : List String).Nodup
    decide
  constructor
  · intro h
    obtain ⟨n, hn, h⟩ := bind_eq_ok.1 h
    cases h
    exact ⟨n, fee, as, i, _, _, rfl, hf, has, rfl, .tail _ (.tail _ (.head _)), (poolId_iff _ _).1 hn,
      .tail _ (.tail _ (.tail _ (.tail _ (.head _)))), .head _, .tail _ (.tail _ (.tail _ (.tail _ (.tail _ (.head _)))))⟩
  · rintro ⟨n, fee', as', i', fs, ps, rfl, hf', has', he, hi, hn, hp, hs, hl⟩
    have hfs := pool_fields rfl he
    subst hfs
    have e1 := mem_fields hd hi (.tail _ (.tail _ (.head _)))
    have e2 := mem_fields hd hp (.tail _ (.tail _ (.tail _ (.tail _ (.head _)))))
    have e3 := mem_fields hd hl (.tail _ (.tail _ (.tail _ (.tail _ (.tail _ (.head _))))))
    cases e1
    cases e2
    have e4 := mem_fields hd2 hs (.head _)
    have e5 : as' = as := assets_inj has' has (Json.arr.inj e3)
    have e6 : fee' = fee := decText_inj hf' hf (Json.str.inj e4)
    subst e5 e6
    exact bind_eq_ok.2 ⟨n, (poolId_iff _ _).2 hn, rfl⟩

theorem stable_pool_iff {a : StableAnswer} (ha : stableAnswer.Fits a) (p : Pool) :
    a.pool = .ok p ↔ Pools.Stable decText ((poolResponse stableAnswer).enc a) p := by
  obtain ⟨t, ad, i, ⟨fee, e⟩, l, f, c, sh, g⟩ := a
  obtain ⟨⟨hf, _⟩, _⟩ := ha
  have hd : (([("@type", text.enc t), ("address", text.enc ad), ("id", text.enc i),
    ("pool_params", stableParams.enc ⟨fee, e⟩), ("pool_liquidity", coin.list.enc l),
    ("scaling_factors", (uint 64).list.enc f), ("scaling_factor_controller", text.enc c),
    ("total_shares", coin.enc sh), ("future_pool_governor", text.enc g)] :
      List (String × Json)).map (·.1)).Nodup := by
    show (["@type", "address", "id", "pool_params", "pool_liquidity", "scaling_factors",
      "scaling_factor_controller", "total_shares", "future_pool_governor"] : List String).Nodup
    decide
  have hd2 : (([("swap_fee", decimal.enc fee), ("exit_fee", decimal.enc e)] :
      List (String × Json)).map (·.1)).Nodup := by
    show (["swap_fee", "exit_fee"] : List String).Nodup
    decide
  constructor
  · intro h
    obtain ⟨n, hn, h⟩ := bind_eq_ok.1 h
    cases h
    exact ⟨n, fee, i, _, _, rfl, hf, rfl, .tail _ (.tail _ (.head _)), (poolId_iff _ _).1 hn,
      .tail _ (.tail _ (.tail _ (.head _))), .head _⟩
  · rintro ⟨n, fee', i', fs, ps, rfl, hf', he, hi, hn, hp, hs⟩
    have hfs := pool_fields rfl he
    subst hfs
    have e1 := mem_fields hd hi (.tail _ (.tail _ (.head _)))
    have e2 := mem_fields hd hp (.tail _ (.tail _ (.tail _ (.head _))))
    cases e1
    cases e2
    have e4 := mem_fields hd2 hs (.head _)
    have e6 : fee' = fee := decText_inj hf' hf (Json.str.inj e4)
    subst e6
    exact bind_eq_ok.2 ⟨n, (poolId_iff _ _).2 hn, rfl⟩

theorem spreadText_iff (s : String) (r : Res Nat) : spreadText s = r ↔
    ((∃ d, JsonText.DecimalText s.toList d ∧ r = .ok d) ∨ ((∀ d, ¬ JsonText.DecimalText s.toList d) ∧ r = .error .generic)) := by
  have hd : ∀ d, parseDecimal s.toList = some d ↔ JsonText.DecimalText s.toList d := Props.C105_decimal s
  unfold spreadText
  cases h : parseDecimal s.toList with
  | some n =>
    dsimp only
    constructor
    · rintro rfl
      exact .inl ⟨n, (hd n).1 h, rfl⟩
    · rintro (⟨d, h', rfl⟩ | ⟨h', _⟩)
      · rw [(hd d).2 h'] at h
        cases h
        rfl
      · exact absurd ((hd n).1 h) (h' n)
  | none =>
    dsimp only
    constructor
    · rintro rfl
      refine .inr ⟨fun d h' => ?_, rfl⟩
      rw [(hd d).2 h'] at h
      cases h
    · rintro (⟨d, h', rfl⟩ | ⟨_, rfl⟩)
      · rw [(hd d).2 h'] at h
        cases h
      · rfl

theorem concentrated_pool_iff (a : ConcentratedAnswer) (p : Pool) :
    a.pool = .ok p ↔ Pools.Concentrated ((poolResponse concentratedAnswer).enc a) p := by
  obtain ⟨t, ad, i, a1, a2, a3, a4, a5, a6, a7, a8, sp, a9, a10⟩ := a
  have hd : (([("@type", text.enc t), ("address", text.enc ad), ("id", text.enc i),
    ("incentives_address", text.enc a1), ("spread_rewards_address", text.enc a2),
    ("token0", text.enc a3), ("token1", text.enc a4), ("current_tick_liquidity", text.enc a5),
    ("current_sqrt_price", text.enc a6), ("current_tick", text.enc a7), ("tick_spacing", text.enc a8),
    ("spread_factor", text.enc sp), ("exponent_at_price_one", text.enc a9),
    ("last_liquidity_update", text.enc a10)] : List (String × Json)).map (·.1)).Nodup := by
    show (["@type", "address", "id", "incentives_address", "spread_rewards_address", "token0", "token1",
      "current_tick_liquidity", "current_sqrt_price", "current_tick", "tick_spacing", "spread_factor",
      "exponent_at_price_one", "last_liquidity_update"] : List String).Nodup
    decide
  constructor
  · intro h
    obtain ⟨n, hn, h⟩ := bind_eq_ok.1 h
    cases h
    exact ⟨n, _, i, sp, _, rfl, rfl, .tail _ (.tail _ (.head _)), (poolId_iff _ _).1 hn,
      .tail _ (.tail _ (.tail _ (.tail _ (.tail _ (.tail _ (.tail _ (.tail _ (.tail _ (.tail _ (.tail _ (.head _))))))))))),
      (spreadText_iff _ _).1 rfl⟩
  · rintro ⟨n, r, i', s', fs, rfl, he, hi, hn, hs, hr⟩
    have hfs := pool_fields rfl he
    subst hfs
    have e1 := mem_fields hd hi (.tail _ (.tail _ (.head _)))
    have e2 := mem_fields hd hs
      (.tail _ (.tail _ (.tail _ (.tail _ (.tail _ (.tail _ (.tail _ (.tail _ (.tail _ (.tail _ (.tail _ (.head _))))))))))))
    cases e1
    cases e2
    refine bind_eq_ok.2 ⟨n, (poolId_iff _ _).2 hn, ?_⟩
    show Except.ok (Pool.queried n (spreadText sp)) = _
    rw [(spreadText_iff _ _).2 hr]

end Ibcx.Json
