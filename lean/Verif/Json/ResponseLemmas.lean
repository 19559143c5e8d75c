import Verif.Json.Response
import Verif.Spec.Response
import Verif.Json.GrammarLemmas2
import Verif.Props.Proto
import Verif.Props.JsonText
/-!
# Lemmas about the texts of responses
-/

namespace Ibcx.Json
open Ibcx Ibcx.Spec Ibcx.Spec.Response
open Ibcx.Storage (Bytes)

theorem text_iff {b : Bytes} {j : Json} : Text b j ↔ ofBytes b = some j := (Props.C105_bytes b j).symm

theorem text_unique {b : Bytes} {j j' : Json} (h : Text b j) (h' : Text b j') : j = j' :=
  Option.some.inj ((text_iff.1 h).symm.trans (text_iff.1 h'))

theorem text_toBytes (j : Json) : Text (toBytes j) j := text_iff.2 (ofBytes_toBytes j)

theorem under_unique : ∀ (p : List String) {j v v' : Json}, Under j p v → Under j p v' → v = v'
  | [], _, _, _, h, h' => h.symm.trans h'
  | n :: p, j, v, v', ⟨w, ⟨fs, h1, h2⟩, h3⟩, ⟨w', ⟨fs', h1', h2'⟩, h3'⟩ => by
    cases h1.symm.trans h1'
    have := h2.symm.trans h2'
    cases this
    exact under_unique p h3 h3'

theorem under_cons {n : String} {p : List String} {v w : Json} {fs : List (String × Json)}
    (h : fs.filter (fun f => f.1 = n) = [(n, w)]) (h' : Under w p v) : Under (.obj fs) (n :: p) v :=
  ⟨w, ⟨fs, rfl, h⟩, h'⟩

theorem under_variant {n : String} {p : List String} {v w : Json} (h : Under w p v) : Under (variant n w) (n :: p) v :=
  under_cons (by simp) h

theorem kind_unique {j : Json} {n n' : String} (h : Kind j n) (h' : Kind j n') : n = n' := by
  obtain ⟨v, rfl⟩ := h
  obtain ⟨v', h'⟩ := h'
  injection h' with h'
  injection h' with h' _
  injection h'

theorem forall₂_unique {α β : Type} {R : α → β → Prop} (hR : ∀ a a' b, R a b → R a' b → a = a') :
    ∀ {l l' : List α} {m : List β}, List.Forall₂ R l m → List.Forall₂ R l' m → l = l'
  | _, _, _, .nil, .nil => rfl
  | _, _, _, .cons h t, .cons h' t' => by rw [hR _ _ _ h h', forall₂_unique hR t t']

theorem forall₂_map {α β : Type} {R : α → β → Prop} {f : α → β} {l : List α} (h : ∀ a ∈ l, R a (f a)) :
    List.Forall₂ R l (l.map f) := by
  induction l with
  | nil => exact .nil
  | cons a l ih => exact .cons (h a (by simp)) (ih fun x hx => h x (by simp [hx]))

theorem str_inj {s t : String} (h : Json.str s = Json.str t) : s = t := by injection h

theorem toString_inj {n m : Nat} (h : toString n = toString m) : n = m :=
  Props.nat_text_inj (congrArg Storage.textBytes h)

theorem isCoin_unique (c c' : Coin) (j : Json) (h : IsCoin c j) (h' : IsCoin c' j) : c = c' := by
  have h1 := str_inj (under_unique _ h.1 h'.1)
  have h2 := toString_inj (str_inj (under_unique _ h.2 h'.2))
  cases c
  cases c'
  simp_all

theorem isCoins_unique {cs cs' : List Coin} {j : Json} (h : IsCoins cs j) (h' : IsCoins cs' j) : cs = cs' := by
  obtain ⟨l, rfl, h⟩ := h
  obtain ⟨l', e, h'⟩ := h'
  injection e with e
  cases e
  exact forall₂_unique isCoin_unique h h'

theorem isCoins_enc (cs : List Coin) : IsCoins cs (coin.list.enc cs) :=
  ⟨_, rfl, forall₂_map fun c _ => ⟨under_cons (by simp) rfl, under_cons (w := u128.enc c.amount) (by simp) rfl⟩⟩

theorem bytes64_unique {b b' : Bytes} {j : Json} (h : Bytes64 b j) (h' : Bytes64 b' j) : b = b' := by
  obtain ⟨bs, rfl, rfl⟩ := h
  obtain ⟨bs', rfl, e⟩ := h'
  have h1 : binary.dec (.str (String.ofList (Texts.base64 bs))) = some bs := (binary_iff _ _).2 ⟨0, by simp⟩
  have h2 : binary.dec (.str (String.ofList (Texts.base64 bs'))) = some bs' := (binary_iff _ _).2 ⟨0, by simp⟩
  rw [← e, h1] at h2
  rw [Option.some.inj h2]

theorem bytes64_text {b : Bytes} (h : ∀ x ∈ b, x < 256) : Bytes64 b (bytesText b) := by
  have e : (b.map UInt8.ofNat).map UInt8.toNat = b := by
    rw [List.map_map]
    refine (List.map_congr_left fun x hx => ?_).trans (List.map_id b)
    have := h x hx
    simp [Nat.mod_eq_of_lt this]
  refine ⟨b.map UInt8.ofNat, e.symm, ?_⟩
  rw [bytesText, ← base64_eq, e]

theorem isMsg_stargate {m : Msg} {j : Json} (hm : ∀ a cs, m ≠ .send a cs) : IsMsg (.chain m) j ↔
    Kind j "stargate" ∧ ∃ url b t, Under j ["stargate", "type_url"] (.str url) ∧ Under j ["stargate", "value"] t ∧
      Bytes64 b t ∧ Proto.Says url b m := by
  cases m with
  | send a cs => exact absurd rfl (hm a cs)
  | _ => exact Iff.rfl

theorem isMsg_unique {m m' : WMsg} {j : Json} (h : IsMsg m j) (h' : IsMsg m' j) : m = m' := by
  have key : ∀ m : WMsg, (∃ a cs, m = .chain (.send a cs)) ∨ (∃ a t f, m = .wasm a t f) ∨
      ∃ c, m = .chain c ∧ ∀ a cs, c ≠ .send a cs := by
    intro m
    cases m with
    | wasm a t f => exact .inr (.inl ⟨_, _, _, rfl⟩)
    | chain c =>
      cases c with
      | send a cs => exact .inl ⟨_, _, rfl⟩
      | _ => exact .inr (.inr ⟨_, rfl, fun _ _ => nofun⟩)
  rcases key m with ⟨a, cs, rfl⟩ | ⟨a, t, f, rfl⟩ | ⟨c, rfl, hc⟩ <;>
    rcases key m' with ⟨a', cs', rfl⟩ | ⟨a', t', f', rfl⟩ | ⟨c', rfl, hc'⟩
  · obtain ⟨_, h1, x, h2, h3⟩ := h
    obtain ⟨_, h1', x', h2', h3'⟩ := h'
    cases under_unique _ h1 h1'
    cases under_unique _ h2 h2'
    rw [isCoins_unique h3 h3']
  · exact absurd (kind_unique h.1 h'.1) (by decide)
  · exact absurd (kind_unique h.1 ((isMsg_stargate hc').1 h').1) (by decide)
  · exact absurd (kind_unique h.1 h'.1) (by decide)
  · obtain ⟨_, h1, ⟨y, h2, h3⟩, x, h4, h5⟩ := h
    obtain ⟨_, h1', ⟨y', h2', h3'⟩, x', h4', h5'⟩ := h'
    cases under_unique _ h1 h1'
    cases under_unique _ h2 h2'
    cases under_unique _ h4 h4'
    rw [bytes64_unique h3 h3', isCoins_unique h5 h5']
  · exact absurd (kind_unique h.1 ((isMsg_stargate hc').1 h').1) (by decide)
  · exact absurd (kind_unique ((isMsg_stargate hc).1 h).1 h'.1) (by decide)
  · exact absurd (kind_unique ((isMsg_stargate hc).1 h).1 h'.1) (by decide)
  · obtain ⟨_, u, b, t, h1, h2, h3, h4⟩ := (isMsg_stargate hc).1 h
    obtain ⟨_, u', b', t', h1', h2', h3', h4'⟩ := (isMsg_stargate hc').1 h'
    cases under_unique _ h1 h1'
    cases under_unique _ h2 h2'
    cases bytes64_unique h3 h3'
    rw [Props.says_unique h4 h4']

theorem isSub_unique (m m' : Option Nat × WMsg) (j : Json) (h : IsSub m.1 m.2 j) (h' : IsSub m'.1 m'.2 j) : m = m' := by
  obtain ⟨r, m⟩ := m
  obtain ⟨r', m'⟩ := m'
  obtain ⟨⟨v, h1, h2⟩, _, h3⟩ := h
  obtain ⟨⟨v', h1', h2'⟩, _, h3'⟩ := h'
  cases under_unique _ h1 h1'
  have e : m = m' := isMsg_unique h2 h2'
  subst e
  cases r with
  | none =>
    cases r' with
    | none => rfl
    | some i => exact absurd (str_inj (under_unique _ h3 h3'.1)) (by decide)
  | some i =>
    cases r' with
    | none => exact absurd (str_inj (under_unique _ h3.1 h3')) (by decide)
    | some i' =>
      have := under_unique _ h3.2 h3'.2
      injection this with this
      rw [this]

theorem isAttr_unique (a a' : String × String) (j : Json) (h : IsAttr a j) (h' : IsAttr a' j) : a = a' :=
  Prod.ext (str_inj (under_unique _ h.1 h'.1)) (str_inj (under_unique _ h.2 h'.2))

/-- What a message must be for its bytes to be its bytes. -/
def Deliverable : WMsg → Prop
  | .chain m => Props.Proto.Small m ∧ ∀ url b, Ibcx.Proto.stargate m = some (url, b) → b.length < 2 ^ 64
  | .wasm _ t _ => ∀ x ∈ t, x < 256

theorem isMsg_cosmosMsg {m : WMsg} (h : Deliverable m) : IsMsg m (cosmosMsg m) := by
  cases m with
  | wasm a t f =>
    exact ⟨⟨_, rfl⟩, under_variant (under_variant (under_cons (by simp) rfl)),
      ⟨_, under_variant (under_variant (under_cons (by simp) rfl)), bytes64_text h⟩,
      ⟨_, under_variant (under_variant (under_cons (by simp) rfl)), isCoins_enc f⟩⟩
  | chain c =>
    by_cases hc : ∃ a cs, c = .send a cs
    · obtain ⟨a, cs, rfl⟩ := hc
      exact ⟨⟨_, rfl⟩, under_variant (under_variant (under_cons (by simp) rfl)),
        _, under_variant (under_variant (under_cons (by simp) rfl)), isCoins_enc cs⟩
    · have hc' : ∀ a cs, c ≠ .send a cs := fun a cs e => hc ⟨a, cs, e⟩
      obtain ⟨h1, h2⟩ := h
      obtain ⟨k1, k2⟩ := Props.C109_messages c
      cases hs : Ibcx.Proto.stargate c with
      | none => exact absurd (k1.1 hs) hc
      | some ub =>
        obtain ⟨url, b⟩ := ub
        obtain ⟨k3, k4⟩ := k2 _ _ hs
        have e : cosmosMsg (.chain c) = variant "stargate" (.obj [("type_url", .str url), ("value", bytesText b)]) := by
          cases c with
          | send a cs => exact absurd rfl (hc' a cs)
          | _ => simp only [cosmosMsg, hs]
        rw [e]
        refine (isMsg_stargate hc').2 ⟨⟨_, rfl⟩, url, b, bytesText b, under_variant (under_cons (by simp) rfl),
          under_variant (under_cons (by simp) rfl), bytes64_text k3, (k4 (h2 _ _ hs) h1).1⟩

theorem isSub_subMsg {m : SubMsg} (h : Deliverable m.msg) : IsSub m.reply m.msg (subMsg m) := by
  refine ⟨⟨_, under_cons (by simp) rfl, isMsg_cosmosMsg h⟩, under_cons (by simp) rfl, ?_⟩
  obtain ⟨r, m⟩ := m
  cases r with
  | none => exact under_cons (by simp) rfl
  | some i => exact ⟨under_cons (by simp) rfl, under_cons (by simp) rfl⟩

/-! ## Reading -/

theorem once_iff {names : List String} {fs : List (String × Json)} :
    once names fs = some () ↔ ∀ n ∈ names, (fs.filter fun f => f.1 = n).length ≤ 1 := by
  have e : ∀ n, (fs.filter fun f => decide (f.1 = n)).length = (fs.map (·.1)).count n := by
    intro n
    rw [List.count, List.countP_map, List.countP_eq_length_filter]
    congr 1
  unfold once
  simp only [e]
  constructor
  · intro h n hn
    split at h
    · rename_i hh
      have := List.nodup_iff_count_le_one.1 hh n
      rwa [List.count_filter (by simpa using hn)] at this
    · cases h
  · intro h
    rw [if_pos (List.nodup_iff_count_le_one.2 ?_)]
    intro n
    by_cases hn : n ∈ names
    · rw [List.count_filter (by simpa using hn)]
      exact h n hn
    · rw [List.count_eq_zero_of_not_mem (by simp [hn])]
      omega

theorem field_filter (fs : List (String × Json)) (n : String) :
    field fs n = ((fs.filter fun f => f.1 = n).head?).map (·.2) := by
  rw [field, List.head?_filter]

theorem member_field {names : List String} {fs : List (String × Json)} {n : String} {v : Json} (hn : n ∈ names)
    (h : once names fs = some ()) : field fs n = some v ↔ Member (.obj fs) n v := by
  have h1 := once_iff.1 h n hn
  rw [field_filter]
  constructor
  · intro h2
    refine ⟨fs, rfl, ?_⟩
    cases hf : fs.filter (fun f => decide (f.1 = n)) with
    | nil => rw [hf] at h2; cases h2
    | cons a l =>
      rw [hf] at h1 h2
      cases l with
      | cons b l => simp at h1
      | nil =>
        have ha : a ∈ fs.filter (fun f => decide (f.1 = n)) := by rw [hf]; simp
        have := (List.mem_filter.1 ha).2
        obtain ⟨a1, a2⟩ := a
        simp at this h2
        rw [this, h2]
  · rintro ⟨fs', e, h2⟩
    injection e with e
    subst e
    rw [h2]
    rfl

theorem under_one {j v : Json} {n : String} : Under j [n] v ↔ Member j n v := by
  constructor
  · rintro ⟨w, h, rfl⟩
    exact h
  · exact fun h => ⟨v, h, rfl⟩

theorem once_of_members {fs : List (String × Json)} {a b : String} {v w : Json} (h : Member (.obj fs) a v)
    (h' : Member (.obj fs) b w) : once [a, b] fs = some () := by
  obtain ⟨fs1, e1, h1⟩ := h
  obtain ⟨fs2, e2, h2⟩ := h'
  injection e1 with e1
  injection e2 with e2
  subst e1
  subst e2
  refine once_iff.2 ?_
  intro n hn
  simp only [List.mem_cons, List.not_mem_nil, or_false] at hn
  rcases hn with rfl | rfl
  · rw [h1]; simp
  · rw [h2]; simp

theorem text_dec {j : Json} {s : String} : text.dec j = some s ↔ j = .str s := by
  cases j <;> simp [text]

theorem mapM_unit {f : Json → Option Unit} : ∀ {l : List Json}, (∃ us, l.mapM f = some us) ↔ ∀ x ∈ l, f x = some ()
  | [] => by simp
  | a :: l => by
    have ih := mapM_unit (f := f) (l := l)
    simp only [List.mapM_cons, List.mem_cons, forall_eq_or_imp, ← ih]
    cases f a with
    | none => simp
    | some u =>
      cases l.mapM f with
      | none => simp
      | some us => simp

theorem readAttribute_iff {j : Json} : readAttribute j = some () ↔ ∃ a, IsAttr a j := by
  constructor
  · intro h
    cases j with
    | obj fs =>
      simp only [readAttribute, fields, Option.bind_eq_bind, Option.bind_some, Option.bind_eq_some_iff, req] at h
      obtain ⟨_, h1, k, ⟨jk, h2, h3⟩, v, ⟨jv, h4, h5⟩, _⟩ := h
      cases text_dec.1 h3
      cases text_dec.1 h5
      exact ⟨(k, v), under_one.2 ((member_field (by simp) h1).1 h2), under_one.2 ((member_field (by simp) h1).1 h4)⟩
    | _ => cases h
  · rintro ⟨⟨k, v⟩, h1, h2⟩
    have h1 := under_one.1 h1
    have h2 := under_one.1 h2
    obtain ⟨fs, rfl, _⟩ := id h1
    have h3 := once_of_members h1 h2
    simp only [readAttribute, fields, Option.bind_eq_bind, Option.bind_some, Option.bind_eq_some_iff, req]
    exact ⟨_, h3, k, ⟨_, (member_field (by simp) h3).2 h1, rfl⟩, v, ⟨_, (member_field (by simp) h3).2 h2, rfl⟩, trivial⟩

theorem readEvent_iff {j : Json} : readEvent j = some () ↔ IsEvent j := by
  constructor
  · intro h
    cases j with
    | obj fs =>
      simp only [readEvent, fields, Option.bind_eq_bind, Option.bind_some, Option.bind_eq_some_iff, req] at h
      obtain ⟨_, h1, t, ⟨jt, h2, h3⟩, ja, h4, h5⟩ := h
      cases text_dec.1 h3
      cases ja with
      | arr l =>
        simp only [Option.bind_eq_some_iff] at h5
        obtain ⟨us, h6, _⟩ := h5
        have h7 := mapM_unit.1 ⟨us, h6⟩
        exact ⟨⟨t, under_one.2 ((member_field (by simp) h1).1 h2)⟩, l, under_one.2 ((member_field (by simp) h1).1 h4),
          fun x hx => readAttribute_iff.1 (h7 x hx)⟩
      | _ => cases h5
    | _ => cases h
  · rintro ⟨⟨t, h1⟩, l, h2, h3⟩
    have h1 := under_one.1 h1
    have h2 := under_one.1 h2
    obtain ⟨fs, rfl, _⟩ := id h1
    have h4 := once_of_members h1 h2
    obtain ⟨us, h5⟩ := mapM_unit.2 fun x hx => readAttribute_iff.2 (h3 x hx)
    simp only [readEvent, fields, Option.bind_eq_bind, Option.bind_some, Option.bind_eq_some_iff, req]
    refine ⟨_, h4, t, ⟨_, (member_field (by simp) h4).2 h1, rfl⟩, _, (member_field (by simp) h4).2 h2, ?_⟩
    simp only [h5, Option.bind_some]

theorem readSubResponse_iff {j : Json} {bs : List UInt8} : readSubResponse j = some (some bs) ↔
    (∃ l, Under j ["events"] (.arr l) ∧ ∀ e ∈ l, IsEvent e) ∧
      ∃ t k, Under j ["data"] (.str t) ∧ t.toList ++ List.replicate k '=' = Texts.base64 bs := by
  constructor
  · intro h
    cases j with
    | obj fs =>
      simp only [readSubResponse, fields, Option.bind_eq_bind, Option.bind_some, Option.bind_eq_some_iff] at h
      obtain ⟨_, h1, ja, h4, h5⟩ := h
      cases ja with
      | arr l =>
        simp only [Option.bind_eq_some_iff] at h5
        obtain ⟨us, h6, h8⟩ := h5
        have h7 := mapM_unit.1 ⟨us, h6⟩
        refine ⟨⟨l, under_one.2 ((member_field (by simp) h1).1 h4), fun x hx => readEvent_iff.1 (h7 x hx)⟩, ?_⟩
        unfold optional at h8
        split at h8
        · cases h8
        · rename_i jd hd
          cases jd with
          | str t =>
            have : binary.dec (.str t) = some bs := by
              simp only [Codec.opt, Option.map_eq_some_iff] at h8
              obtain ⟨a, h9, h10⟩ := h8
              rw [h9, Option.some.inj h10]
            obtain ⟨k, hk⟩ := (binary_iff _ _).1 this
            exact ⟨t, k, under_one.2 ((member_field (by simp) h1).1 hd), hk⟩
          | _ => simp [Codec.opt, binary] at h8
      | _ => cases h5
    | _ => cases h
  · rintro ⟨⟨l, h1, h3⟩, t, k, h2, h5⟩
    have h1 := under_one.1 h1
    have h2 := under_one.1 h2
    obtain ⟨fs, rfl, _⟩ := id h1
    have h4 := once_of_members h1 h2
    obtain ⟨us, h6⟩ := mapM_unit.2 fun x hx => readEvent_iff.2 (h3 x hx)
    simp only [readSubResponse, fields, Option.bind_eq_bind, Option.bind_some, Option.bind_eq_some_iff]
    refine ⟨_, h4, _, (member_field (by simp) h4).2 h1, ?_⟩
    simp only [h6, Option.bind_some, optional, (member_field (by simp) h4).2 h2, Codec.opt, (binary_iff _ _).2 ⟨k, h5⟩,
      Option.map_some]

theorem readReply_iff {b : Bytes} {id : Nat} {bs : List UInt8} :
    (ofBytes b).bind readReply = some (id, some (some bs)) ↔ IsReply b id (bs.map UInt8.toNat) := by
  constructor
  · intro h
    obtain ⟨j, h0, h⟩ := Option.bind_eq_some_iff.1 h
    cases j with
    | obj fs =>
      simp only [readReply, fields, Option.bind_eq_bind, Option.bind_some, Option.bind_eq_some_iff, req] at h
      obtain ⟨_, h1, i, ⟨ji, h2, h3⟩, r, h4, res, h5, h6⟩ := h
      cases h6
      have hi : ji = .num id ∧ id < 2 ^ 64 := by
        cases ji with
        | num n =>
          simp only [uint] at h3
          split at h3
          · cases h3
            exact ⟨rfl, by assumption⟩
          · cases h3
        | _ => cases h3
      obtain ⟨rfl, hid⟩ := hi
      have hr : ∃ o, r = .obj [("ok", o)] ∧ readSubResponse o = some (some bs) := by
        simp only [oneOf, Option.bind_eq_bind, Option.bind_eq_some_iff] at h5
        obtain ⟨⟨n, body⟩, k1, o, k2, c, k3, k4⟩ := h5
        simp only at k2
        subst k2
        have hn : r = .obj [(n, o)] := by
          unfold asVariant at k1
          split at k1 <;> cases k1
          rfl
        simp only [List.find?_cons] at k3
        split at k3
        · rename_i e
          cases k3
          have e : "ok" = n := by simpa using e
          subst e
          obtain ⟨a, k5, k6⟩ := Option.map_eq_some_iff.1 k4
          cases k6
          exact ⟨o, hn, k5⟩
        · split at k3
          · cases k3
            obtain ⟨a, k5, k6⟩ := Option.map_eq_some_iff.1 k4
            cases k6
          · cases k3
      obtain ⟨o, rfl, ho⟩ := hr
      obtain ⟨⟨l, k1, k2⟩, t, k, k3, k4⟩ := readSubResponse_iff.1 ho
      exact ⟨_, _, text_iff.2 h0, hid, under_one.2 ((member_field (by simp) h1).1 h2),
        under_one.2 ((member_field (by simp) h1).1 h4), ⟨_, rfl⟩, ⟨l, under_cons (by simp) k1, k2⟩, t, bs, k,
        under_cons (by simp) k3, rfl, k4⟩
    | _ => cases h
  · rintro ⟨j, r, h0, hid, h1, h2, ⟨o, rfl⟩, ⟨l, h3, h4⟩, t, bs', k, h5, h6, h7⟩
    have hb : bs' = bs := by
      refine (List.map_injective_iff.2 ?_ h6).symm
      intro x y h
      exact UInt8.toNat_inj.1 h
    subst hb
    have h1 := under_one.1 h1
    have h2 := under_one.1 h2
    obtain ⟨fs, rfl, _⟩ := _root_.id h1
    have ho := once_of_members h1 h2
    have hu : ∀ p v, Under (.obj [("ok", o)]) ("ok" :: p) v → Under o p v := by
      rintro p v ⟨w, ⟨fs', e, hf⟩, hw⟩
      injection e with e
      subst e
      simp at hf
      rw [hf]
      exact hw
    have hr := readSubResponse_iff.2 ⟨⟨l, hu _ _ h3, h4⟩, t, k, hu _ _ h5, h7⟩
    rw [text_iff.1 h0, Option.bind_some]
    simp only [readReply, fields, Option.bind_eq_bind, Option.bind_some, Option.bind_eq_some_iff, req]
    refine ⟨_, ho, id, ⟨_, (member_field (by simp) ho).2 h1, ?_⟩, _, (member_field (by simp) ho).2 h2, some (some bs'), ?_, rfl⟩
    · simp only [uint]
      rw [if_pos hid]
    · simp [oneOf, asVariant, hr]

end Ibcx.Json
