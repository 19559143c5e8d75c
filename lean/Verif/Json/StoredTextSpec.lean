import Mathlib.Data.List.DropRight
import Verif.Json.QueryTextSpec
import Verif.Json.StoredLemmas
import Verif.Spec.StoredTexts
import Verif.Spec.Fits
import Verif.Storage.CoreExecLemmas
/-! # The stored texts agree with the texts of `Verif.Spec.StoredTexts`, and are read back

Not part of the model. -/

namespace Ibcx.Json
open Ibcx Ibcx.Spec Ibcx.Storage

/-! ## Base64 -/

theorem sixBits_char : ∀ n < 64, Pool.base64Char n = Texts.sixBits n := by decide +kernel

theorem base64_eq (bs : List UInt8) : Pool.toBase64 (bs.map UInt8.toNat) = Texts.base64 bs := by
  have key : ∀ x y : Nat, x < 64 → x = y % 64 → Pool.base64Char x = Texts.sixBits y := by
    intro x y h1 h2
    rw [sixBits_char x h1, Texts.sixBits, Texts.sixBits, h2, Nat.mod_mod]
  induction bs using Texts.base64.induct with
  | case1 => rfl
  | case2 a =>
    have := a.toNat_lt
    refine congrArg₂ List.cons (key _ _ (by omega) (by omega)) (congrArg₂ List.cons (key _ _ (by omega) (by omega)) rfl)
  | case3 a b =>
    have := a.toNat_lt
    have := b.toNat_lt
    refine congrArg₂ List.cons (key _ _ (by omega) (by omega)) (congrArg₂ List.cons (key _ _ (by omega) (by omega))
      (congrArg₂ List.cons (key _ _ (by omega) (by omega)) rfl))
  | case4 a b c r ih =>
    have := a.toNat_lt
    have := b.toNat_lt
    have := c.toNat_lt
    refine congrArg₂ List.cons (key _ _ (by omega) (by omega)) (congrArg₂ List.cons (key _ _ (by omega) (by omega))
      (congrArg₂ List.cons (key _ _ (by omega) (by omega)) (congrArg₂ List.cons (key _ _ (by omega) (by omega)) ih)))

/-! ## A decimal number is written in one way -/

/-- A decimal number with its digits after the point, none for a whole number. -/
theorem isDecimal_iff (n : Nat) (s : String) : Texts.IsDecimal n s ↔
    ∃ w f, f.length ≤ 18 ∧ (∀ c ∈ f, c.isDigit = true) ∧ f.getLast? ≠ some '0' ∧
      n = 10 ^ 18 * w + Texts.digitsValue f * 10 ^ (18 - f.length) ∧
      s = if f = [] then toString w else toString w ++ "." ++ String.ofList f := by
  constructor
  · rintro (⟨w, h1, h2⟩ | ⟨w, f, h0, h1, h2, h3, h4, h5⟩)
    · exact ⟨w, [], by decide, by simp, by simp, by simpa [Texts.digitsValue] using h1, by simpa using h2⟩
    · exact ⟨w, f, h1, h2, h3, h4, by rw [if_neg h0]; exact h5⟩
  · rintro ⟨w, f, h1, h2, h3, h4, h5⟩
    by_cases h0 : f = []
    · subst h0
      exact .inl ⟨w, by simpa [Texts.digitsValue] using h4, by simpa using h5⟩
    · exact .inr ⟨w, f, h0, h1, h2, h3, h4, by rw [h5, if_neg h0]⟩

theorem digitsValue_append (f g : List Char) : Texts.digitsValue (f ++ g) =
    Texts.digitsValue f * 10 ^ g.length + Texts.digitsValue g := by
  induction g using List.reverseRecOn with
  | nil => simp [Texts.digitsValue]
  | append_singleton g c ih =>
    have e : ∀ (l : List Char) (x : Char), Texts.digitsValue (l ++ [x]) = 10 * Texts.digitsValue l + (x.toNat - 48) := by
      intro l x
      simp [Texts.digitsValue]
    rw [← List.append_assoc, e, e, ih]
    simp only [List.length_append, List.length_singleton, pow_succ]
    ring

theorem digit_lt {c : Char} (h : c.isDigit = true) : 48 ≤ c.toNat ∧ c.toNat < 58 := by
  simp only [Char.isDigit, Bool.and_eq_true, decide_eq_true_eq] at h
  have h1 : (48 : Nat) ≤ c.val.toNat := h.1
  have h2 : c.val.toNat ≤ 57 := h.2
  exact ⟨h1, by show c.val.toNat < 58; omega⟩

theorem digitsValue_lt (f : List Char) (h : ∀ c ∈ f, c.isDigit = true) : Texts.digitsValue f < 10 ^ f.length := by
  induction f using List.reverseRecOn with
  | nil => simp [Texts.digitsValue]
  | append_singleton g c ih =>
    have h1 := ih fun x hx => h x (by simp [hx])
    have h2 := digit_lt (h c (by simp))
    have e : Texts.digitsValue (g ++ [c]) = 10 * Texts.digitsValue g + (c.toNat - 48) := by simp [Texts.digitsValue]
    rw [e, List.length_append, List.length_singleton, pow_succ]
    omega

theorem digitsValue_inj : ∀ {f g : List Char}, f.length = g.length → (∀ c ∈ f, c.isDigit = true) →
    (∀ c ∈ g, c.isDigit = true) → Texts.digitsValue f = Texts.digitsValue g → f = g := by
  intro f
  induction f using List.reverseRecOn with
  | nil =>
    intro g hl _ _ _
    exact (List.eq_nil_of_length_eq_zero hl.symm).symm
  | append_singleton f c ih =>
    intro g
    induction g using List.reverseRecOn with
    | nil => intro hl; simp at hl
    | append_singleton g d _ =>
      intro hl hf hg he
      have e : ∀ (l : List Char) (x : Char), Texts.digitsValue (l ++ [x]) = 10 * Texts.digitsValue l + (x.toNat - 48) := by
        intro l x
        simp [Texts.digitsValue]
      rw [e, e] at he
      have h1 := digit_lt (hf c (by simp))
      have h2 := digit_lt (hg d (by simp))
      have h3 : c = d := Char.toNat_inj.1 (by omega)
      subst h3
      rw [ih (by simpa using hl) (fun x hx => hf x (by simp [hx])) (fun x hx => hg x (by simp [hx])) (by omega)]

theorem fill_trim (f : List Char) (k : Nat) (h : f.getLast? ≠ some '0') :
    (f ++ List.replicate k '0').rdropWhile (· = '0') = f := by
  induction k with
  | zero =>
    rw [List.replicate_zero, List.append_nil, List.rdropWhile_eq_self_iff]
    intro hl
    have := List.getLast?_eq_some_getLast hl
    rw [this] at h
    simpa using h
  | succ k ih =>
    rw [List.replicate_succ', ← List.append_assoc, List.rdropWhile_concat_pos _ _ _ (by simp)]
    exact ih

theorem isDecimal_unique {n : Nat} {s t : String} (hs : Texts.IsDecimal n s) (ht : Texts.IsDecimal n t) : s = t := by
  obtain ⟨w, f, h1, h2, h3, h4, h5⟩ := (isDecimal_iff n s).1 hs
  obtain ⟨u, g, k1, k2, k3, k4, k5⟩ := (isDecimal_iff n t).1 ht
  have pad : ∀ (f : List Char), f.length ≤ 18 →
      Texts.digitsValue (f ++ List.replicate (18 - f.length) '0') = Texts.digitsValue f * 10 ^ (18 - f.length) := by
    intro f _
    have z : ∀ k, Texts.digitsValue (List.replicate k '0') = 0 := by
      intro k
      induction k with
      | zero => rfl
      | succ k ih =>
        rw [List.replicate_succ', digitsValue_append, ih]
        rfl
    rw [digitsValue_append, z, List.length_replicate, Nat.add_zero]
  have dig : ∀ (f : List Char), (∀ c ∈ f, c.isDigit = true) →
      ∀ c ∈ f ++ List.replicate (18 - f.length) '0', c.isDigit = true := by
    intro f h c hc
    rcases List.mem_append.1 hc with h' | h'
    · exact h c h'
    · rw [List.eq_of_mem_replicate h']; rfl
  have len : ∀ (f : List Char), f.length ≤ 18 → (f ++ List.replicate (18 - f.length) '0').length = 18 := by
    intro f h
    rw [List.length_append, List.length_replicate]
    omega
  rw [← pad f h1] at h4
  rw [← pad g k1] at k4
  have l1 := digitsValue_lt _ (dig f h2)
  have l2 := digitsValue_lt _ (dig g k2)
  rw [len f h1] at l1
  rw [len g k1] at l2
  generalize hx : Texts.digitsValue (f ++ List.replicate (18 - f.length) '0') = x at *
  generalize hy : Texts.digitsValue (g ++ List.replicate (18 - g.length) '0') = y at *
  have e : w = u ∧ x = y := by
    norm_num at *
    omega
  obtain ⟨rfl, rfl⟩ := e
  have eq := digitsValue_inj ((len f h1).trans (len g k1).symm) (dig f h2) (dig g k2) (hx.trans hy.symm)
  have : f = g := by rw [← fill_trim f (18 - f.length) h3, eq, fill_trim g _ k3]
  subst this
  rw [h5, k5]

theorem dec_unique {dec : Nat → String} (h : ∀ n, Texts.IsDecimal n (dec n)) : dec = decText :=
  funext fun n => isDecimal_unique (h n) (decText_spec n)

/-! ## The texts -/

theorem shown_version (v : Iface.ContractVersion) : shown (versionRecord.enc v) = Texts.version v := by
  simp only [versionRecord, Texts.version]
  show_more

theorem shown_storedConfig (c : Core.Config) : shown (config.enc c) = Texts.storedConfig c := by
  simp only [config, Texts.storedConfig, shown_obj, List.map_cons, List.map_nil, shown_pause]
  show_more

theorem shown_storedRoute (t : Core.TradeInfo) : shown (tradeInfo.enc t) = Texts.storedRoute t := by
  simp only [tradeInfo, Texts.storedRoute]
  show_more

theorem shown_storedDrop (a : Airdrop.Drop) : shown (drop.enc a) = Texts.storedDrop a := by
  have hx : ∀ b, shown (binary.enc b) = Texts.quoted (String.ofList (Texts.base64 b)) := fun b => by
    rw [← base64_eq]; exact shown_str _
  obtain ⟨k, cr, d, t, c, r, l, ca, cl⟩ := a
  cases k <;>
    simp only [drop, openDrop, bearerDrop, Texts.storedDrop, shown_variant, shown_obj, List.map_cons, List.map_nil, hx] <;>
    show_more

/-- The text at a place of the core contract. -/
theorem coreCell_eq (v : Iface.ContractVersion) (s : Core.State) (p : CorePlace) :
    (coreAt v s p).map coreValText = (Texts.coreCell decText v s p).map textBytes := by
  cases p <;> simp only [coreAt, Texts.coreCell, Option.map_some, Option.map_map, Function.comp_def, coreValText, toText_shown,
    shown_version, shown_storedConfig, shown_fees, shown_amount, shown_units, shown_rebalanceState, shown_storedRoute,
    shown_text]

/-- The text at a place of the airdrop contract. -/
theorem dropCell_eq (v : Iface.ContractVersion) (s : Airdrop.State) (p : DropPlace) :
    (dropAt v s p).map dropValText = (Texts.dropCell v s p).map textBytes := by
  have kind : ∀ a : Airdrop.Drop, typeName a = Texts.kindName a := by
    intro a
    cases h : a.kind <;> simp [typeName, Texts.kindName, h]
  have eight : dropValText (.pkLen 8) = textBytes "8" := by decide +kernel
  cases p with
  | byType t n =>
    simp only [dropAt, Texts.dropCell]
    cases h : s.drops.get n with
    | none => simp
    | some a =>
      simp only [Option.map_some, Option.bind_some, kind]
      by_cases e : Texts.kindName a = t
      · simp [e, eight]
      · simp [e]
  | byCreator c n =>
    simp only [dropAt, Texts.dropCell]
    cases h : s.drops.get n with
    | none => simp
    | some a =>
      simp only [Option.map_some, Option.bind_some]
      by_cases e : a.creator = c
      · simp [e, eight]
      · simp [e]
  | _ => simp only [dropAt, Texts.dropCell, Option.map_some, Option.map_map, Function.comp_def, dropValText, toText_shown,
    shown_version, shown_amount, shown_uint, shown_storedDrop]

/-! ## Reading back -/

theorem basketFits_units {us : List (Denom × Nat)} (h : Texts.BasketFits us) : units.Fits us := fun e he => ⟨trivial, h e he⟩

/-- What a state with fitting numbers keeps is read back from the texts written. -/
theorem coreReads_text {s : Core.State} (h : Texts.CoreStateFits s) : CoreReads Bytes s where
  config := ofText_toText config_faithful h.pause
  fee := ofText_toText fee_faithful ⟨h.mintFee, h.burnFee, h.stream⟩
  supply := ofText_toText u128_faithful h.supply
  units := ofText_toText units_faithful (basketFits_units h.index)
  pending := fun a _ => ofText_toText text_faithful trivial
  rebalance := fun r hr => ofText_toText rebalance_faithful ⟨basketFits_units (h.targets r hr).1, basketFits_units (h.targets r hr).2⟩
  reserve := fun u hu => ofText_toText units_faithful (basketFits_units (h.reserve u hu))
  info := fun k t ht => ofText_toText tradeInfo_faithful (h.infos (k, t) (KV.mem_of_get ht))

/-- What a state with fitting numbers keeps is read back from the texts written. -/
theorem dropReads_text {s : Airdrop.State} (h : Texts.DropStateFits s) : DropReads Bytes s where
  latest := ofText_toText (uint_faithful 64) h.latest
  drops := fun id a ha => ofText_toText drop_faithful (h.drops (id, a) (KV.mem_of_get ha)).2
  labels := fun l n hn => ofText_toText (uint_faithful 64) (h.labels (l, n) (KV.mem_of_get hn))
  claims := fun k n hn => ofText_toText u128_faithful (h.claims (k, n) (KV.mem_of_get hn)).2

end Ibcx.Json
