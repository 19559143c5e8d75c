import Verif.Json.PoolsLemmas
import Verif.Props.PoolKinds
import Verif.Props.Zap
import Verif.Props.ZapAccept
import Verif.Props.AirdropDemo
import Verif.Props.ZapMint
/-!
# C107: what the contract makes of the chain's answers about pools
-/

namespace Ibcx.Spec.Pools
open Ibcx Ibcx.Json

/-- The answer begins as that of a weighted, stable or concentrated pool (`C67_pool_kind`). -/
inductive Kind where
  | weighted
  | stable
  | concentrated
deriving DecidableEq

/-- How the answers of each kind begin. -/
def Begins : Kind → List Nat → Prop
  | .weighted, v => ascii weightedText <+: v
  | .stable, v => ∃ c r, v = ascii stableText ++ c :: r ∧ 32 ≤ c ∧ c ≤ 35
  | .concentrated, v => ascii concentratedText <+: v

/-- The pool that the bytes of an answer describe. -/
def Describes (dec : Nat → String) (v : List Nat) (p : Pool.Pool) : Prop :=
  (Begins .weighted v ∧ ∃ full, Answer dec Schema.weightedAnswer v full ∧ Weighted dec full p) ∨
    (Begins .stable v ∧ ∃ full, Answer dec Schema.stableAnswer v full ∧ Stable dec full p) ∨
    (Begins .concentrated v ∧ ∃ full, Answer dec Schema.concentratedAnswer v full ∧ Concentrated full p)

/-- The answer is that of a stable pool, and one of its scaling factors is written as a text: the form in which the chain
writes whole numbers of 64 bits, as in `/repo/packages/pool/src/testdata/all-pools.json:26607-26610`. -/
def QuotedFactors (v : List Nat) : Prop :=
  Begins .stable v ∧ ∃ cs fs xs s, v = (cs.flatMap String.utf8EncodeChar).map UInt8.toNat ∧
    JsonText.IsText cs (.obj [("pool", .obj fs)]) ∧ ("scaling_factors", .arr xs) ∈ fs ∧ .str s ∈ xs

end Ibcx.Spec.Pools

namespace Ibcx.Props
open Ibcx Ibcx.Pool Ibcx.Json Ibcx.Spec

deriving instance DecidableEq for Ibcx.Pool.Pool

private theorem utf8_bytes {v : List Nat} (h : (fromUtf8 v).isSome = true) : Spec.Bytes v := by
  obtain ⟨cs, hcs⟩ := Option.isSome_iff_exists.1 h
  rw [(fromUtf8_iff _ _).1 hcs]
  intro b hb
  obtain ⟨x, _, rfl⟩ := List.mem_map.1 hb
  exact x.toNat_lt

private theorem kind_iff {v : List Nat} (hv : Spec.Bytes v) :
    (poolType v = some .weighted ↔ Pools.Begins .weighted v) ∧ (poolType v = some .stable ↔ Pools.Begins .stable v) ∧
      (poolType v = some .concentrated ↔ Pools.Begins .concentrated v) := C67_pool_kind v hv

private theorem readMsg_utf8 {α : Type} {c : Codec α} {v : List Nat} {a : α} (h : readMsg c v = .ok a) :
    (fromUtf8 v).isSome = true := by
  obtain ⟨j, hj, _⟩ := readMsg_eq_ok.1 h
  obtain ⟨cs, h1, _⟩ := Option.bind_eq_some_iff.1 hj
  rw [h1]
  rfl

/-- **C107 (read).** The bytes of an answer are decoded as a pool exactly when they begin with the type of one of the three
kinds, are the UTF-8 form of a JSON text that has the fields of that kind and no others, in any order and each of its type,
and the id is a number of 64 bits; and the pool has the id, the fee and the assets that are written there. -/
theorem C107_read : ∃ dec : Nat → String, (∀ n, Texts.IsDecimal n (dec n)) ∧
    ∀ v p, decodeAnswer v = .ok (some p) ↔ Pools.Describes dec v p := by
  refine ⟨decText, decText_spec, fun v p => ?_⟩
  have hdec : decodeAnswer v = .ok (some p) ↔ ∃ k, poolType v = some k ∧ (fromUtf8 v).isSome = true ∧ readPool k v = .ok p := by
    unfold decodeAnswer decodePool
    cases h : poolType v with
    | none => simp
    | some k =>
      dsimp only
      constructor
      · intro h
        obtain ⟨_, h1, h⟩ := bind_eq_ok.1 h
        obtain ⟨q, h2, h⟩ := bind_eq_ok.1 h
        cases h
        exact ⟨k, rfl, require_eq_ok.1 h1, h2⟩
      · rintro ⟨k', e, h1, h2⟩
        cases e
        exact bind_eq_ok.2 ⟨(), require_eq_ok.2 h1, bind_eq_ok.2 ⟨p, h2, rfl⟩⟩
  rw [hdec]
  constructor
  · rintro ⟨k, hk, hu, hp⟩
    have hb := kind_iff (utf8_bytes hu)
    cases k with
    | weighted =>
      obtain ⟨a, ha, hp⟩ := bind_eq_ok.1 hp
      obtain ⟨j, _, hj⟩ := readMsg_eq_ok.1 ha
      exact .inl ⟨hb.1.1 hk, _, (answer_iff weightedAnswer_matches _ _).2 ⟨a, ha, rfl⟩,
        (weighted_pool_iff (poolResponse_bounded weightedAnswer_bounded j a hj) p).1 hp⟩
    | stable =>
      obtain ⟨a, ha, hp⟩ := bind_eq_ok.1 hp
      obtain ⟨j, _, hj⟩ := readMsg_eq_ok.1 ha
      exact .inr (.inl ⟨hb.2.1.1 hk, _, (answer_iff stableAnswer_matches _ _).2 ⟨a, ha, rfl⟩,
        (stable_pool_iff (poolResponse_bounded stableAnswer_bounded j a hj) p).1 hp⟩)
    | concentrated =>
      obtain ⟨a, ha, hp⟩ := bind_eq_ok.1 hp
      exact .inr (.inr ⟨hb.2.2.1 hk, _, (answer_iff concentratedAnswer_matches _ _).2 ⟨a, ha, rfl⟩,
        (concentrated_pool_iff a p).1 hp⟩)
  · rintro (⟨hk, full, ha, hp⟩ | ⟨hk, full, ha, hp⟩ | ⟨hk, full, ha, hp⟩)
    · obtain ⟨a, hr, rfl⟩ := (answer_iff weightedAnswer_matches _ _).1 ha
      have hu := readMsg_utf8 hr
      obtain ⟨j, _, hj⟩ := readMsg_eq_ok.1 hr
      exact ⟨.weighted, (kind_iff (utf8_bytes hu)).1.2 hk, hu, bind_eq_ok.2 ⟨a, hr,
        (weighted_pool_iff (poolResponse_bounded weightedAnswer_bounded j a hj) p).2 hp⟩⟩
    · obtain ⟨a, hr, rfl⟩ := (answer_iff stableAnswer_matches _ _).1 ha
      have hu := readMsg_utf8 hr
      obtain ⟨j, _, hj⟩ := readMsg_eq_ok.1 hr
      exact ⟨.stable, (kind_iff (utf8_bytes hu)).2.1.2 hk, hu, bind_eq_ok.2 ⟨a, hr,
        (stable_pool_iff (poolResponse_bounded stableAnswer_bounded j a hj) p).2 hp⟩⟩
    · obtain ⟨a, hr, rfl⟩ := (answer_iff concentratedAnswer_matches _ _).1 ha
      have hu := readMsg_utf8 hr
      exact ⟨.concentrated, (kind_iff (utf8_bytes hu)).2.2.2 hk, hu, bind_eq_ok.2 ⟨a, hr,
        (concentrated_pool_iff a p).2 hp⟩⟩

/-- The first pool of `/repo/packages/pool/src/testdata/all-pools.json:3-33`, its fields in the order of the chain. -/
def poolOne : Json.Json := .obj [("pool", .obj
  [("@type", .str "/osmosis.gamm.v1beta1.Pool"), ("address", .str "osmo1mw"), ("id", .str "1"),
   ("pool_params", .obj [("swap_fee", .str "0.002000000000000000"), ("exit_fee", .str "0.000000000000000000"),
     ("smooth_weight_change_params", .null)]),
   ("future_pool_governor", .str "24h"),
   ("total_shares", .obj [("denom", .str "gamm/pool/1"), ("amount", .str "118110066746641272899943446")]),
   ("pool_assets", .arr [
     .obj [("token", .obj [("denom", .str "ibc/27"), ("amount", .str "940252127847")]), ("weight", .str "536870912000000")],
     .obj [("token", .obj [("denom", .str "uosmo"), ("amount", .str "21913198562070")]), ("weight", .str "536870912000000")]]),
   ("total_weight", .str "1073741824000000")])]

/-- A concentrated pool, `/repo/packages/pool/src/testdata/all-pools.json:34815-34831`. -/
def pool1066 : Json.Json := .obj [("pool", .obj
  [("@type", .str "/osmosis.concentratedliquidity.v1beta1.Pool"), ("address", .str "osmo126"),
   ("incentives_address", .str "osmo1h2"), ("spread_rewards_address", .str "osmo16j"), ("id", .str "1066"),
   ("current_tick_liquidity", .str "1870085.770765"), ("token0", .str "uosmo"), ("token1", .str "ibc/0C"),
   ("current_sqrt_price", .str "542943.448"), ("current_tick", .str "100947875"), ("tick_spacing", .str "100"),
   ("exponent_at_price_one", .str "-6"), ("spread_factor", .str "0.002000000000000000"),
   ("last_liquidity_update", .str "2023-10-06T03:14:30.046577375Z")])]

/-- A stable pool, `/repo/packages/pool/src/testdata/all-pools.json:26584-26612`, with the scaling factors in the given
form. -/
def pool810 (factors : Json.Json) : Json.Json := .obj [("pool", .obj
  [("@type", .str "/osmosis.gamm.poolmodels.stableswap.v1beta1.Pool"), ("address", .str "osmo1"), ("id", .str "810"),
   ("pool_params", .obj [("swap_fee", .str "0.003000000000000000"), ("exit_fee", .str "0.000000000000000000")]),
   ("future_pool_governor", .str ""),
   ("total_shares", .obj [("denom", .str "gamm/pool/810"), ("amount", .str "1919465802189083791600")]),
   ("pool_liquidity", .arr [.obj [("denom", .str "ibc/5D"), ("amount", .str "13211097904502")],
     .obj [("denom", .str "ibc/98"), ("amount", .str "12373054694668")]]),
   ("scaling_factors", factors), ("scaling_factor_controller", .str "osmo1k8")])]

/-- Pools of the three kinds are read from their texts: numbers, fees and assets. -/
example : decodeAnswer (toBytes poolOne) = .ok (some (.weighted ⟨1, 2000000000000000,
      [⟨"ibc/27", 940252127847, 536870912000000⟩, ⟨"uosmo", 21913198562070, 536870912000000⟩]⟩)) ∧
    decodeAnswer (toBytes pool1066) = .ok (some (.queried 1066 (.ok 2000000000000000))) ∧
    decodeAnswer (toBytes (pool810 (.arr [.num 100000, .num 135936]))) = .ok (some (.queried 810 (.ok 3000000000000000))) := by
  decide +kernel

/-- **C107 (unknown).** An answer is passed over exactly when it begins with none of the three types. -/
theorem C107_unknown (v : List Nat) (hv : Spec.Bytes v) :
    decodeAnswer v = .ok none ↔ ∀ k, ¬ Pools.Begins k v := by
  have hb := kind_iff hv
  unfold decodeAnswer decodePool
  cases h : poolType v with
  | none =>
    dsimp only
    refine ⟨fun _ k hk => ?_, fun _ => rfl⟩
    cases k with
    | weighted => rw [hb.1.2 hk] at h; cases h
    | stable => rw [hb.2.1.2 hk] at h; cases h
    | concentrated => rw [hb.2.2.2 hk] at h; cases h
  | some k =>
    dsimp only
    constructor
    · intro h
      obtain ⟨_, _, h⟩ := bind_eq_ok.1 h
      obtain ⟨_, _, h⟩ := bind_eq_ok.1 h
      cases h
    · intro hn
      cases k with
      | weighted => exact absurd (hb.1.1 h) (hn .weighted)
      | stable => exact absurd (hb.2.1.1 h) (hn .stable)
      | concentrated => exact absurd (hb.2.2.1 h) (hn .concentrated)

/-- A pool of a contract is passed over; white space before the type is enough for that. -/
example : decodeAnswer (toBytes (.obj [("pool", .obj [("@type", .str "/osmosis.cosmwasmpool.v1beta1.CosmWasmPool")])])) = .ok none ∧
    decodeAnswer (Storage.textBytes "{\"pool\": {\"@type\":\"/osmosis.gamm.v1beta1.Pool\"}}") = .ok none := by
  decide +kernel

/-- **C107 (scaling factors).** A stable pool in the form in which the chain writes it, with the scaling factors as texts, is
refused. -/
theorem C107_quoted_factors {v : List Nat} (h : Pools.QuotedFactors v) : decodeAnswer v = .error .generic := by
  obtain ⟨hk, cs, fs, xs, s, hv, hj, hf, hs⟩ := h
  have hj := (C105_bytes v _).2 ⟨cs, hv, hj⟩
  have hu : (fromUtf8 v).isSome = true := by
    obtain ⟨cs, h1, _⟩ := Option.bind_eq_some_iff.1 hj
    rw [h1]
    rfl
  have hn : (poolResponse stableAnswer).dec (.obj [("pool", .obj fs)]) = none := by
    rw [Option.eq_none_iff_forall_ne_some]
    intro a ha
    obtain ⟨b, hb, _⟩ := Option.bind_eq_some_iff.1 ha
    have hb : stableAnswer.dec (.obj fs) = some b := hb
    obtain ⟨fs', h0, hb⟩ := Option.bind_eq_some_iff.1 hb
    obtain ⟨_, ho, hg⟩ := Option.bind_eq_some_iff.1 h0
    cases hg
    have hd : (fs.map (·.1)).Nodup := by
      unfold only at ho
      split at ho
      · rename_i h; exact h.1
      · cases ho
    obtain ⟨x1, h1, hb⟩ := Option.bind_eq_some_iff.1 hb
    obtain ⟨x2, h2, hb⟩ := Option.bind_eq_some_iff.1 hb
    obtain ⟨x3, h3, hb⟩ := Option.bind_eq_some_iff.1 hb
    obtain ⟨x4, h4, hb⟩ := Option.bind_eq_some_iff.1 hb
    obtain ⟨x5, h5, hb⟩ := Option.bind_eq_some_iff.1 hb
    obtain ⟨x6, h6, hb⟩ := Option.bind_eq_some_iff.1 hb
    obtain ⟨j, hj6, h6⟩ := Option.bind_eq_some_iff.1 h6
    rw [(field_some_iff hd).2 hf] at hj6
    cases hj6
    have h6 : xs.mapM (uint 64).dec = some x6 := h6
    clear * - h6 hs
    induction xs generalizing x6 with
    | nil => cases hs
    | cons x xs ih =>
      rw [List.mapM_cons] at h6
      obtain ⟨y, hy, h6⟩ := Option.bind_eq_some_iff.1 h6
      obtain ⟨ys, hys, h6⟩ := Option.bind_eq_some_iff.1 h6
      rcases List.mem_cons.1 hs with rfl | hs
      · cases hy
      · exact ih hs _ hys
  have hr : readMsg (poolResponse stableAnswer) v = .error .generic := by
    unfold readMsg Codec.ofText
    rw [hj]
    rw [show (some (Json.obj [("pool", .obj fs)]) >>= (poolResponse stableAnswer).dec) = none from hn]
  unfold decodeAnswer decodePool
  rw [(kind_iff (utf8_bytes hu)).2.1.2 hk]
  dsimp only
  rw [show require ((fromUtf8 v).isSome = true) Err.panic = .ok () from require_eq_ok.2 hu, ok_bind]
  unfold readPool
  dsimp only
  rw [hr]
  rfl

/-- The stable pool of the test data. -/
example : Pools.QuotedFactors (toBytes (pool810 (.arr [.str "100000", .str "135936"]))) := by
  have hj := ofBytes_toBytes (pool810 (.arr [.str "100000", .str "135936"]))
  obtain ⟨cs, h1, h2⟩ := (C105_bytes _ _).1 hj
  have hb : Spec.Bytes (toBytes (pool810 (.arr [.str "100000", .str "135936"]))) := by
    rw [h1]
    intro b hb
    obtain ⟨x, _, rfl⟩ := List.mem_map.1 hb
    exact x.toNat_lt
  exact ⟨(kind_iff hb).2.1.1 (by decide +kernel), cs, _, _, _, h1, h2,
    .tail _ (.tail _ (.tail _ (.tail _ (.tail _ (.tail _ (.tail _ (.head _))))))), .head _⟩

/-- It is refused. -/
example : decodeAnswer (toBytes (pool810 (.arr [.str "100000", .str "135936"]))) = .error .generic := by
  decide +kernel

/-- **C107 (all pools).** Asking all questions first and decoding the answers afterwards gives the same pools as asking and
decoding one by one. -/
theorem C107_order (raw : Nat → Res Storage.Bytes) (ids : List Nat) (ps : List Pool) :
    queryRawPools raw (fun v => (fromUtf8 v).isSome) readPool ids = .ok ps ↔ queryPools (askPool raw) ids = .ok ps := by
  have key : ∀ (ids : List Nat) (os : List (Option Pool)),
      (∃ vs, ids.mapM raw = .ok vs ∧ vs.mapM decodeAnswer = .ok os) ↔ ids.mapM (askPool raw) = .ok os := by
    intro ids
    induction ids with
    | nil =>
      intro os
      constructor
      · rintro ⟨vs, h1, h2⟩
        cases h1
        exact h2
      · intro h
        exact ⟨[], rfl, h⟩
    | cons n ids ih =>
      intro os
      rw [List.mapM_cons, List.mapM_cons]
      constructor
      · rintro ⟨vs, h1, h2⟩
        obtain ⟨v, hv, h1⟩ := bind_eq_ok.1 h1
        obtain ⟨ws, hw, h1⟩ := bind_eq_ok.1 h1
        cases h1
        rw [List.mapM_cons] at h2
        obtain ⟨o, ho, h2⟩ := bind_eq_ok.1 h2
        obtain ⟨rs, hr, h2⟩ := bind_eq_ok.1 h2
        cases h2
        exact bind_eq_ok.2 ⟨o, bind_eq_ok.2 ⟨v, hv, ho⟩, bind_eq_ok.2 ⟨rs, (ih rs).1 ⟨ws, hw, hr⟩, rfl⟩⟩
      · intro h
        obtain ⟨o, ho, h⟩ := bind_eq_ok.1 h
        obtain ⟨rs, hr, h⟩ := bind_eq_ok.1 h
        cases h
        obtain ⟨v, hv, ho⟩ := bind_eq_ok.1 ho
        obtain ⟨ws, hw, hr⟩ := (ih rs).2 hr
        refine ⟨v :: ws, bind_eq_ok.2 ⟨v, hv, bind_eq_ok.2 ⟨ws, hw, rfl⟩⟩, ?_⟩
        rw [List.mapM_cons]
        exact bind_eq_ok.2 ⟨o, ho, bind_eq_ok.2 ⟨rs, hr, rfl⟩⟩
  unfold queryRawPools queryPools
  constructor
  · intro h
    obtain ⟨vs, h1, h⟩ := bind_eq_ok.1 h
    obtain ⟨os, h2, h⟩ := bind_eq_ok.1 h
    exact bind_eq_ok.2 ⟨os, (key _ _).1 ⟨vs, h1, h2⟩, h⟩
  · intro h
    obtain ⟨os, h1, h⟩ := bind_eq_ok.1 h
    obtain ⟨vs, h1, h2⟩ := (key _ _).2 h1
    exact bind_eq_ok.2 ⟨vs, h1, bind_eq_ok.2 ⟨os, h2, h⟩⟩

/-- Two answers, of which one is passed over. -/
example : (queryRawPools (fun n => .ok (if n = 1 then toBytes poolOne else Storage.textBytes "{}"))
      (fun v => (fromUtf8 v).isSome) readPool [1, 2]).toOption.map (·.map Pool.id) = some [1] := by
  decide +kernel

/-- Every pool on the routes has an answer that can be read, or one of an unknown kind. -/
private theorem sim_answers {p : Periphery.PEnv} {raw : Nat → Res Storage.Bytes} {infos : List SwapInfo} {units : Core.Units}
    {sim : Simulator} (h : Periphery.makeSim (withAnswers p raw) infos units = .ok sim) :
    ∀ i ∈ infos, ∀ r ∈ i.routes, ∃ v o, raw r.poolId = .ok v ∧ decodeAnswer v = .ok o := by
  intro i hi r hr
  obtain ⟨pools, hp, _⟩ := bind_eq_ok.1 h
  obtain ⟨os, hos, _⟩ := bind_eq_ok.1 hp
  have hmem : r.poolId ∈ extractPoolIds infos := ((C56_pool_ids infos).2 _).2 ⟨i, hi, r, hr, rfl⟩
  have key : ∀ (ids : List Nat) (os : List (Option Pool)), ids.mapM (askPool raw) = .ok os → ∀ n ∈ ids, ∃ o, askPool raw n = .ok o := by
    intro ids
    induction ids with
    | nil => intro os _ n hn; cases hn
    | cons m ids ih =>
      intro os h n hn
      rw [List.mapM_cons] at h
      obtain ⟨o, ho, h⟩ := bind_eq_ok.1 h
      obtain ⟨rs, hr, h⟩ := bind_eq_ok.1 h
      rcases List.mem_cons.1 hn with rfl | hn
      · exact ⟨o, ho⟩
      · exact ih rs hr n hn
  obtain ⟨o, ho⟩ := key _ os hos _ hmem
  obtain ⟨v, hv, ho⟩ := bind_eq_ok.1 ho
  exact ⟨v, o, hv, ho⟩

/-- The swap routes a message brings along. -/
def swapInfoOf : Periphery.PExecMsg → List Periphery.Compact
  | .mintExactIn _ _ _ si | .mintExactOut _ _ _ si | .burnExactIn _ _ _ si | .burnExactOut _ _ si => si
  | .finishOperation _ _ => []

private theorem zap_sim {p : Periphery.PEnv} {info : Info} {m : Periphery.PExecMsg} {ms : List Periphery.PMsg}
    {infos : List SwapInfo} (hsi : Periphery.parseInfos (swapInfoOf m) = .ok infos) (hm : Periphery.execute p info m = .ok ms) :
    infos = [] ∨ ∃ units sim, Periphery.makeSim p infos units = .ok sim := by
  cases m with
  | finishOperation who asset =>
    cases hsi
    exact .inl rfl
  | _ =>
    right
    obtain ⟨infos', h1, hm⟩ := bind_eq_ok.1 hm
    have e : infos' = infos := (Except.ok.inj (hsi.symm.trans h1)).symm
    subst e
    obtain ⟨core, _, hm⟩ := bind_eq_ok.1 hm
    obtain ⟨fee, _, hm⟩ := bind_eq_ok.1 hm
    obtain ⟨config, _, hm⟩ := bind_eq_ok.1 hm
    obtain ⟨portfolio, _, hm⟩ := bind_eq_ok.1 hm
    obtain ⟨paid, _, hm⟩ := bind_eq_ok.1 hm
    obtain ⟨sim, hs, _⟩ := bind_eq_ok.1 hm
    exact ⟨_, _, hs⟩

/-- **C107 (zaps).** When a zap succeeds, the chain has answered about every pool on its routes, and each answer describes a
pool or is of an unknown kind. -/
theorem C107_zap_answers : ∃ dec : Nat → String, (∀ n, Texts.IsDecimal n (dec n)) ∧
    ∀ (p : Periphery.PEnv) (raw : Nat → Res Storage.Bytes) (info : Info) (m : Periphery.PExecMsg) (ms : List Periphery.PMsg)
      (infos : List SwapInfo), Periphery.parseInfos (swapInfoOf m) = .ok infos →
      Periphery.execute (withAnswers p raw) info m = .ok ms →
      ∀ i ∈ infos, ∀ r ∈ i.routes, ∃ v, raw r.poolId = .ok v ∧ ((∃ q, Pools.Describes dec v q) ∨ decodeAnswer v = .ok none) := by
  obtain ⟨dec, hdec, hread⟩ := C107_read
  refine ⟨dec, hdec, fun p raw info m ms infos hsi hm => ?_⟩
  intro i hi r hr
  rcases zap_sim hsi hm with rfl | ⟨units, sim, h⟩
  · cases hi
  · obtain ⟨v, o, hv, ho⟩ := sim_answers h i hi r hr
    refine ⟨v, hv, ?_⟩
    cases o with
    | none => exact .inr ho
    | some q => exact .inl ⟨q, (hread v q).1 ho⟩

/-- Bob's purchase over a concentrated pool about which the chain answers with its text. -/
example : (Periphery.execute (withAnswers (zapWorld.penv zapEnv zapPools) fun _ => .ok (toBytes pool1066))
      ⟨"bob", [⟨"uosmo", 80000⟩]⟩ (.mintExactOut "core" 40000 "uosmo" [⟨"uosmo,uatom", ["1066,uosmo"]⟩])).toOption =
    some [.chain (.swapExactOut "zap" [⟨1066, "uosmo"⟩] ⟨"uatom", 10000⟩ 11428),
      .core "core" (.mint 40000 (some "bob") (some "bob")) [⟨"uatom", 10000⟩, ⟨"uosmo", 60000⟩],
      .finish "bob" "uosmo"] := by decide +kernel

/-- **C107 (stable pools).** A zap with a route through a stable pool in the form in which the chain writes it fails. -/
theorem C107_stable_zap_fails (p : Periphery.PEnv) (raw : Nat → Res Storage.Bytes) (info : Info) (m : Periphery.PExecMsg)
    (infos : List SwapInfo) (i : SwapInfo) (r : SwapRoute) (v : Storage.Bytes)
    (hsi : Periphery.parseInfos (swapInfoOf m) = .ok infos) (hi : i ∈ infos) (hr : r ∈ i.routes) (hv : raw r.poolId = .ok v)
    (hq : Pools.QuotedFactors v) : ∃ e, Periphery.execute (withAnswers p raw) info m = .error e := by
  cases hm : Periphery.execute (withAnswers p raw) info m with
  | error e => exact ⟨e, rfl⟩
  | ok ms =>
    exfalso
    rcases zap_sim hsi hm with rfl | ⟨units, sim, h⟩
    · cases hi
    · obtain ⟨v', o, hv', ho⟩ := sim_answers h i hi r hr
      rw [hv] at hv'
      cases hv'
      rw [C107_quoted_factors hq] at ho
      cases ho

/-- The same purchase over a stable pool: it fails as the chain writes the pool, and would succeed with the scaling factors
as numbers. -/
example : Periphery.execute (withAnswers (zapWorld.penv zapEnv zapPools) fun _ =>
        .ok (toBytes (pool810 (.arr [.str "100000", .str "135936"]))))
      ⟨"bob", [⟨"uosmo", 80000⟩]⟩ (.mintExactOut "core" 40000 "uosmo" [⟨"uosmo,uatom", ["810,uosmo"]⟩]) = .error .generic ∧
    (Periphery.execute (withAnswers (zapWorld.penv zapEnv zapPools) fun _ =>
        .ok (toBytes (pool810 (.arr [.num 100000, .num 135936]))))
      ⟨"bob", [⟨"uosmo", 80000⟩]⟩ (.mintExactOut "core" 40000 "uosmo" [⟨"uosmo,uatom", ["810,uosmo"]⟩])).isOk = true := by
  decide +kernel

end Ibcx.Props
