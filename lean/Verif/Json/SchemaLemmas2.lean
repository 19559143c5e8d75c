import Verif.Json.SchemaLemmas
import Verif.Json.MessagesLemmas
import Verif.Json.TextSpec
import Verif.Json.QueryTextSpec
/-!
# Each codec follows its table
-/

namespace Ibcx.Json
open Ibcx Ibcx.Spec

/-- Reading and writing again gives the tree in full, up to a wrapping.  Used in proofs only, for the messages of
`/repo/packages/interface/src/core.rs:82-96`. -/
def Follows {β : Type} (f : Json → Option β) (g : β → Json) (S : Schema) (w : Json → Json) : Prop :=
  ∀ j, (f j).map g = (norm S j).map w

/-- Reading and writing again gives the tree in full.  Used in proofs only, for the messages of
`/repo/packages/interface/src/core.rs:82-96`. -/
def Codec.Matches {α : Type} (c : Codec α) (S : Schema) : Prop := ∀ j, (c.dec j).map c.enc = norm S j

theorem matches_of_follows {α : Type} {c : Codec α} {S : Schema} (h : Follows c.dec c.enc S id) : c.Matches S := by
  intro j
  have := h j
  rwa [Option.map_id_fun, id] at this

theorem text_matches : text.Matches .text := fun _ => by rw [norm]
theorem flag_matches : flag.Matches .flag := fun _ => by rw [norm]
theorem uint_matches (bits : Nat) : (uint bits).Matches (.number bits) := fun _ => by rw [norm]
theorem u128_matches : u128.Matches .amount := fun _ => by rw [norm]
theorem u256_matches : u256.Matches .wide := fun _ => by rw [norm]
theorem decimal_matches : decimal.Matches .decimal := fun _ => by rw [norm]

theorem opt_matches {α : Type} {c : Codec α} {S : Schema} (h : c.Matches S) : c.opt.Matches (.optional S) := by
  intro j
  have e : ∀ j, ((c.dec j).map some).map c.opt.enc = norm S j := by
    intro j
    rw [Option.map_map]
    exact h j
  cases j with
  | null => simp [norm, Codec.opt]
  | _ => simp only [norm]; exact e _

theorem list_matches {α : Type} {c : Codec α} {S : Schema} (h : c.Matches S) : c.list.Matches (.list S) := by
  intro j
  cases j with
  | arr xs =>
    simp only [norm]
    show (xs.mapM c.dec).map c.list.enc = _
    have e : ∀ xs : List Json, (xs.mapM c.dec).map (·.map c.enc) = xs.mapM (norm S) := by
      intro xs
      induction xs with
      | nil => rfl
      | cons x xs ih =>
        rw [List.mapM_cons, List.mapM_cons, ← ih, ← h x]
        cases c.dec x with
        | none => rfl
        | some a =>
          cases xs.mapM c.dec with
          | none => rfl
          | some as => rfl
    rw [← e, Option.map_map]
    rfl
  | _ => simp [norm, Codec.list]

theorem pair_matches {α β : Type} {c : Codec α} {d : Codec β} {S T : Schema} (h : c.Matches S) (k : d.Matches T) :
    (c.pair d).Matches (.pair S T) := by
  intro j
  cases j with
  | arr xs =>
    rcases xs with _ | ⟨x, _ | ⟨y, _ | ⟨z, zs⟩⟩⟩
    · simp [norm, Codec.pair]
    · simp [norm, Codec.pair]
    · simp only [norm]
      rw [← h x, ← k y]
      show ((c.dec x).bind fun a => (d.dec y).bind fun b => some (a, b)).map _ = _
      cases c.dec x with
      | none => rfl
      | some a =>
        cases d.dec y with
        | none => rfl
        | some b => rfl
    · simp [norm, Codec.pair]
  | _ => simp [norm, Codec.pair]

theorem step_req {α β : Type} {c : Codec α} {S : Schema} {fs : List (String × Json)} {name : String}
    {rest : List (String × Schema)} {k : α → Option β} {g : β → Json} {w : List (String × Json) → Json}
    (h : c.Matches S) (ho : isOption S = false)
    (hk : ∀ a, (k a).map g = (normFields rest fs).map fun vs => w ((name, c.enc a) :: vs)) :
    (req fs name c >>= k).map g = (normFields ((name, S) :: rest) fs).map w := by
  rw [normFields]
  show (((field fs name).bind c.dec).bind k).map g = _
  cases field fs name with
  | none => simp [ho]
  | some j =>
    dsimp only
    rw [← h j, Option.bind_some]
    cases hj : c.dec j with
    | none => rfl
    | some a =>
      show (k a).map g = ((normFields rest fs).map _).map w
      rw [hk a, Option.map_map]
      rfl

theorem step_opt {α β : Type} {c : Codec α} {S : Schema} {fs : List (String × Json)} {name : String}
    {rest : List (String × Schema)} {k : Option α → Option β} {g : β → Json} {w : List (String × Json) → Json}
    (h : c.Matches S)
    (hk : ∀ a, (k a).map g = (normFields rest fs).map fun vs => w ((name, c.opt.enc a) :: vs)) :
    (optional fs name c >>= k).map g = (normFields ((name, .optional S) :: rest) fs).map w := by
  rw [normFields]
  unfold optional
  cases field fs name with
  | none =>
    show (k none).map g = ((normFields rest fs).map _).map w
    rw [hk none, Option.map_map]
    rfl
  | some j =>
    dsimp only
    rw [← opt_matches h j]
    cases hj : c.opt.dec j with
    | none => rfl
    | some a =>
      show (k a).map g = ((normFields rest fs).map _).map w
      rw [hk a, Option.map_map]
      rfl

theorem step_end {β : Type} {b : β} {fs : List (String × Json)} {g : β → Json} {w : List (String × Json) → Json}
    (h : g b = w []) : (some b : Option β).map g = (normFields [] fs).map w := by
  rw [normFields]
  show some (g b) = some (w [])
  rw [h]

theorem follows_record {β : Type} {names : List String} {fields : List (String × Schema)}
    {k : List (String × Json) → Option β} {g : β → Json} {w : Json → Json} (hn : names = fields.map (·.1))
    (h : ∀ fs, (k fs).map g = (normFields fields fs).map fun vs => w (.obj vs)) :
    Follows (fun j => record names j >>= k) g (.record fields) w := by
  intro j
  rw [norm, hn]
  show ((record _ j).bind k).map g = _
  cases record (fields.map (·.1)) j with
  | none => rfl
  | some fs =>
    show (k fs).map g = ((normFields fields fs).map _).map w
    rw [h fs, Option.map_map]
    rfl

theorem follows_codec {α β : Type} {c : Codec α} {S : Schema} {k : α → Option β} {K : α → β} {g : β → Json} {w : Json → Json}
    (h : c.Matches S) (hk : ∀ a, k a = some (K a)) (hg : ∀ a, g (K a) = w (c.enc a)) :
    Follows (fun j => c.dec j >>= k) g S w := by
  intro j
  rw [← h j]
  show ((c.dec j).bind k).map g = _
  cases c.dec j with
  | none => rfl
  | some a =>
    show (k a).map g = some (w (c.enc a))
    rw [hk, ← hg]
    rfl

/-- The variants of a type follow the table one by one.  Used in proofs only, for the messages of
`/repo/packages/interface/src/core.rs:82-96`. -/
inductive FollowCases {β : Type} (g : β → Json) : List (String × (Json → Option β)) → List (String × Schema) → Prop
  | nil : FollowCases g [] []
  | cons {n : String} {f : Json → Option β} {S : Schema} {cs : List (String × (Json → Option β))}
      {ss : List (String × Schema)} (h : Follows f g S (variant n)) (rest : FollowCases g cs ss) :
      FollowCases g ((n, f) :: cs) ((n, S) :: ss)

theorem follows_cases {β : Type} {g : β → Json} {cs : List (String × (Json → Option β))} {ss : List (String × Schema)}
    (h : FollowCases g cs ss) (name : String) (x : Json) :
    ((cs.find? fun c => c.1 = name).bind fun c => c.2 x).map g = (normCase ss name x).map (variant name) := by
  induction h with
  | nil => rfl
  | @cons n f S cs ss h rest ih =>
    rw [List.find?_cons, normCase]
    by_cases e : n = name
    · rw [decide_eq_true e, if_pos e]
      subst e
      exact h x
    · rw [decide_eq_false e, if_neg e]
      exact ih

theorem follows_oneOf {β : Type} {g : β → Json} {cs : List (String × (Json → Option β))} {ss : List (String × Schema)}
    (h : FollowCases g cs ss) (j : Json) : (oneOf cs j).map g = norm (.choice ss) j := by
  rw [norm]
  show ((asVariant j).bind fun v => v.2.bind fun body => (cs.find? fun c => c.1 = v.1).bind fun c => c.2 body).map g = _
  cases asVariant j with
  | none => rfl
  | some v =>
    obtain ⟨name, o⟩ := v
    cases o with
    | none => rfl
    | some x => exact follows_cases h name x

theorem units_matches : units.Matches Schema.units := list_matches (pair_matches text_matches decimal_matches)

theorem rangeOrder_matches : rangeOrder.Matches Schema.order := by
  intro j
  unfold Schema.order
  cases j with
  | str s =>
    rw [norm]
    show (rangeOrder.dec (.str s)).map rangeOrder.enc = _
    by_cases h1 : s = "asc"
    · subst h1; rfl
    · by_cases h2 : s = "desc"
      · subst h2; rfl
      · have : rangeOrder.dec (.str s) = none := by
          unfold rangeOrder
          dsimp only
          split
          · rename_i e; cases e; exact absurd rfl h1
          · rename_i e; cases e; exact absurd rfl h2
          · rfl
        rw [this]
        simp [text, h1, h2]
  | _ => simp [norm, rangeOrder, text]

theorem dropType_matches : dropType.Matches (.word ["open", "bearer"]) := by
  intro j
  cases j with
  | str s =>
    rw [norm]
    show (dropType.dec (.str s)).map dropType.enc = _
    by_cases h1 : s = "open"
    · subst h1; rfl
    · by_cases h2 : s = "bearer"
      · subst h2; rfl
      · have : dropType.dec (.str s) = none := by
          unfold dropType
          dsimp only
          split
          · rename_i e; cases e; exact absurd rfl h1
          · rename_i e; cases e; exact absurd rfl h2
          · rfl
        rw [this]
        simp [text, h1, h2]
  | _ => simp [norm, dropType, text]

theorem coin_matches : coin.Matches Schema.coin := by
  intro j
  unfold Schema.coin
  rw [norm]
  show ((fields j).bind fun fs => (once ["denom", "amount"] fs).bind fun _ => _).map coin.enc = _
  cases fields j with
  | none => rfl
  | some fs =>
    show ((once ["denom", "amount"] fs).bind fun _ => _).map coin.enc = (once ["denom", "amount"] fs).bind fun _ => _
    cases once ["denom", "amount"] fs with
    | none => rfl
    | some _ =>
      refine step_req (c := text) text_matches rfl fun a => ?_
      refine step_req (c := u128) u128_matches rfl fun b => ?_
      exact step_end rfl

/-- A field has the form of its codec. -/
local macro "form" : tactic => `(tactic| first
  | exact text_matches | exact flag_matches | exact u128_matches | exact decimal_matches | exact uint_matches _
  | exact units_matches | exact coin_matches | exact rangeOrder_matches | exact dropType_matches
  | exact list_matches text_matches | exact list_matches coin_matches | assumption)

/-- Goes through the fields of a record. -/
local macro "fields_follow" : tactic => `(tactic| (
  intro fs
  repeat first
    | exact step_end rfl
    | refine step_opt (by form) fun _ => ?_
    | refine step_req (by form) rfl fun _ => ?_))

/-- Goes through the variants of a type. -/
local macro "cases_follow" : tactic => `(tactic| (
  repeat first
    | exact FollowCases.nil
    | refine FollowCases.cons (follows_record rfl (by fields_follow)) ?_
    | refine FollowCases.cons (follows_codec (by first | form | exact opt_matches (by form)) (fun _ => rfl) (fun _ => rfl)) ?_))

theorem swapRoute_matches : swapRoute.Matches (.record [("pool_id", .number 64), ("token_denom", .text)]) :=
  matches_of_follows (follows_record rfl (by fields_follow))

theorem migrateMsg_matches : migrateMsg.Matches Schema.migrate := by
  refine matches_of_follows (follows_record rfl ?_)
  intro fs
  have := step_opt (fs := fs) (name := "force") (rest := []) (k := some) (g := migrateMsg.enc)
    (w := fun vs => id (.obj vs)) flag_matches fun a => step_end rfl
  rw [← this]
  show _ = ((optional fs "force" flag).bind some).map migrateMsg.enc
  cases optional fs "force" flag <;> rfl

theorem streamingFeePayload_matches : streamingFeePayload.Matches (.record [("rate", .decimal), ("freeze", .flag)]) :=
  matches_of_follows (follows_record rfl (by fields_follow))

theorem feePayload_matches : feePayload.Matches Schema.feePayload := by
  have := streamingFeePayload_matches
  exact matches_of_follows (follows_record rfl (by fields_follow))

theorem coreInstantiate_matches : coreInstantiate.Matches Schema.coreInstantiate := by
  have := feePayload_matches
  exact matches_of_follows (follows_record rfl (by fields_follow))

theorem govMsg_matches : govMsg.Matches Schema.gov := by
  have := feePayload_matches
  have := list_matches swapRoute_matches
  exact follows_oneOf (by cases_follow)

theorem tradeMsg_matches : tradeMsg.Matches (.choice
    [("deflate", .record [("target_denom", .text), ("amount_out", .amount), ("max_amount_in", .amount)]),
     ("inflate", .record [("target_denom", .text), ("amount_in", .amount), ("min_amount_out", .amount)])]) :=
  follows_oneOf (by cases_follow)

theorem rebalanceMsg_matches : rebalanceMsg.Matches Schema.rebalance := by
  have := tradeMsg_matches
  exact follows_oneOf (by cases_follow)

theorem coreExecute_matches : coreExecute.Matches Schema.coreExecute := by
  have := govMsg_matches
  have := rebalanceMsg_matches
  exact follows_oneOf (by cases_follow)

theorem coreQuery_matches : coreQuery.Matches Schema.coreQuery := follows_oneOf (by cases_follow)

theorem emptyMsg_matches : emptyMsg.Matches (.record []) :=
  matches_of_follows (follows_record rfl (by fields_follow))

theorem dropId_matches : dropId.Matches Schema.dropId := follows_oneOf (by cases_follow)

theorem registerPayload_matches : registerPayload.Matches (.choice
    [("open", .record [("merkle_root", .text), ("denom", .text), ("label", .optional .text)]),
     ("bearer", .record
       [("merkle_root", .text), ("denom", .text), ("signer_pub", .text), ("signer_sig", .text), ("label", .optional .text)])]) :=
  follows_oneOf (by cases_follow)

theorem claimPayload_matches : claimPayload.Matches Schema.claim := by
  have := dropId_matches
  exact follows_oneOf (by cases_follow)

theorem dropExecute_matches : dropExecute.Matches Schema.dropExecute := by
  have := dropId_matches
  have := registerPayload_matches
  have := claimPayload_matches
  exact follows_oneOf (by cases_follow)

theorem listOption_matches : listOption.Matches (.choice
    [("by_i_d", .record
       [("start_after", .optional (.number 64)), ("limit", .optional (.number 32)), ("order", .optional Schema.order)]),
     ("by_type", .record
       [("type", .word ["open", "bearer"]), ("start_after", .optional (.number 64)), ("limit", .optional (.number 32)),
        ("order", .optional Schema.order)]),
     ("by_label", .record
       [("start_after", .optional .text), ("limit", .optional (.number 32)), ("order", .optional Schema.order)]),
     ("by_creator", .record
       [("creator", .text), ("start_after", .optional (.number 64)), ("limit", .optional (.number 32)),
        ("order", .optional Schema.order)])]) :=
  follows_oneOf (by cases_follow)

theorem dropQuery_matches : dropQuery.Matches Schema.dropQuery := by
  have := dropId_matches
  have := listOption_matches
  have := claimPayload_matches
  exact follows_oneOf (by cases_follow)

theorem compact_matches : compact.Matches (.record [("key", .text), ("routes", .list .text)]) :=
  matches_of_follows (follows_record rfl (by fields_follow))

theorem zapExecute_matches : zapExecute.Matches Schema.zapExecute := by
  have := list_matches compact_matches
  exact follows_oneOf (by cases_follow)

theorem zapQuery_matches : zapQuery.Matches Schema.zapQuery := by
  have := list_matches compact_matches
  exact follows_oneOf (by cases_follow)

end Ibcx.Json
