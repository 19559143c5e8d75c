import Verif.Core.Inv
import Verif.Spec.Link
import Verif.Spec.Reasons
/-!
# When the functions of the core contract fail, and how

Not part of the model.
-/

namespace Ibcx
variable {α β : Type}

theorem bind_eq_error {x : Res α} {f : α → Res β} {e : Err} :
    (x >>= f) = .error e ↔ x = .error e ∨ ∃ a, x = .ok a ∧ f a = .error e := by
  cases x with
  | error e' => simp
  | ok a => simp

theorem require_eq_error {c : Prop} [Decidable c] {e e' : Err} : require c e' = .error e ↔ ¬ c ∧ e = e' := by
  unfold require
  split <;> simp_all [eq_comm]

theorem chk_error {n : Nat} {e : Err} (h : chk n = .error e) : e = .overflow := by
  unfold chk at h; split at h <;> simp_all

theorem add_error {a b : Nat} {e : Err} (h : add a b = .error e) : e = .overflow := chk_error h
theorem mulInt_error {a b : Nat} {e : Err} (h : mulInt a b = .error e) : e = .overflow := chk_error h
theorem decMul_error {a b : Nat} {e : Err} (h : decMul a b = .error e) : e = .overflow := chk_error h
theorem sub_error {a b : Nat} {e : Err} (h : sub a b = .error e) : e = .overflow := by
  unfold sub at h; split at h <;> simp_all
theorem add64_error {a b : Nat} {e : Err} (h : add64 a b = .error e) : e = .overflow := by
  unfold add64 at h; split at h <;> simp_all

theorem ratio_error {a b : Nat} {e : Err} (h : ratio a b = .error e) :
    e = .overflow ∨ (e = .divideByZero ∧ b = 0) := by
  unfold ratio at h
  split at h
  · rename_i hb
    simp only [Except.error.injEq] at h
    exact .inr ⟨h.symm, hb⟩
  · exact .inl (chk_error h)

theorem mapM_error {f : α → Res β} {P : Err → Prop} {l : List α} (hf : ∀ a ∈ l, ∀ e, f a = .error e → P e) {e : Err}
    (h : l.mapM f = .error e) : P e := by
  induction l with
  | nil => rw [List.mapM_nil] at h; cases h
  | cons a l ih =>
    rw [List.mapM_cons, bind_eq_error] at h
    rcases h with h | ⟨b, _, h⟩
    · exact hf a (by simp) e h
    · rw [bind_eq_error] at h
      rcases h with h | ⟨bs, _, h⟩
      · exact ih (fun a ha => hf a (by simp [ha])) h
      · cases h

theorem foldlM_error {f : β → α → Res β} {P : Err → Prop} {l : List α} (hf : ∀ b, ∀ a ∈ l, ∀ e, f b a = .error e → P e)
    {b : β} {e : Err} (h : l.foldlM f b = .error e) : P e := by
  induction l generalizing b with
  | nil => rw [List.foldlM_nil] at h; cases h
  | cons a l ih =>
    rw [List.foldlM_cons, bind_eq_error] at h
    rcases h with h | ⟨b', _, h⟩
    · exact hf b a (by simp) e h
    · exact ih (fun b a ha => hf b a (by simp [ha])) h

theorem powLoop_error {f x y n : Nat} (hf : 0 < f) (hn : n ≤ f) {e : Err} (h : powLoop f x y n = .error e) :
    e = .overflow := by
  induction f generalizing x y n with
  | zero => omega
  | succ f ih =>
    unfold powLoop at h
    split at h
    · exact decMul_error h
    · rename_i h1
      have hf' : 0 < f := by omega
      split at h
      · rw [bind_eq_error] at h
        rcases h with h | ⟨_, _, h⟩
        · exact decMul_error h
        · exact ih hf' (by omega) h
      · rw [bind_eq_error] at h
        rcases h with h | ⟨_, _, h⟩
        · exact decMul_error h
        · rw [bind_eq_error] at h
          rcases h with h | ⟨_, _, h⟩
          · exact decMul_error h
          · exact ih hf' (by omega) h

theorem checkedPow_error {x n : Nat} {e : Err} (h : checkedPow x n = .error e) : e = .overflow := by
  unfold checkedPow at h
  split at h
  · cases h
  · exact powLoop_error (by omega) (le_refl _) h

theorem validate_error {env : Env} {a : Addr} {e : Err} (h : validate env a = .error e) :
    e = .invalidAddr ∧ env.validAddr a = false := by
  unfold validate at h; split at h <;> simp_all

theorem validateOpt_error {env : Env} {a : Option Addr} {e : Err} (h : validateOpt env a = .error e) :
    e = .invalidAddr ∧ ∃ x, a = some x ∧ env.validAddr x = false := by
  cases a with
  | none => cases h
  | some x =>
    simp only [validateOpt, bind_eq_error] at h
    rcases h with h | ⟨_, _, h⟩
    · exact ⟨(validate_error h).1, x, rfl, (validate_error h).2⟩
    · cases h

theorem unwrapAddr_error {env : Env} {a : Option Addr} {f : Addr} {e : Err} (h : unwrapAddr env a f = .error e) :
    e = .invalidAddr ∧ ∃ x, a = some x ∧ env.validAddr x = false := by
  simp only [unwrapAddr, bind_eq_error] at h
  rcases h with h | ⟨_, _, h⟩
  · exact validateOpt_error h
  · cases h

theorem mustPay_error {info : Info} {d : Denom} {e : Err} (h : mustPay info d = .error e) :
    e = .payment ∧ ¬ ∃ n, info.funds = [⟨d, n⟩] ∧ n ≠ 0 := by
  constructor
  · unfold mustPay at h
    split at h
    · split at h
      · simp_all
      · split at h <;> simp_all
    · simp_all
  · rintro ⟨n, h1, h2⟩
    simp [mustPay, h1, h2] at h

namespace Core

theorem assertSender_error {a b : Addr} {e : Err} (h : assertSender a b = .error e) : e = .unauthorized ∧ a ≠ b := by
  obtain ⟨h1, h2⟩ := require_eq_error.1 h
  exact ⟨h2, h1⟩

theorem addCollected_error {cs : List Coin} {c : Coin} {e : Err} (h : addCollected cs c = .error e) : e = .overflow := by
  induction cs with
  | nil => cases h
  | cons x xs ih =>
    unfold addCollected at h
    split at h <;> rw [bind_eq_error] at h
    · rcases h with h | ⟨_, _, h⟩
      · exact add_error h
      · cases h
    · rcases h with h | ⟨_, _, h⟩
      · exact ih h
      · cases h

/-- The collection of the streaming fee fails only because a number does not fit. -/
theorem collect_error {s : State} {now : Nat} {e : Err} (h : collectStreamingFee s now = .error e) : e = .overflow := by
  unfold collectStreamingFee at h
  split at h
  · cases h
  · rw [bind_eq_error] at h
    rcases h with h | ⟨_, _, h⟩
    · unfold StreamingFee.collect at h
      rw [bind_eq_error] at h
      rcases h with h | ⟨_, _, h⟩
      · exact sub_error h
      split at h
      · cases h
      rw [bind_eq_error] at h
      rcases h with h | ⟨_, _, h⟩
      · exact add_error h
      rw [bind_eq_error] at h
      rcases h with h | ⟨_, _, h⟩
      · exact checkedPow_error h
      rw [bind_eq_error] at h
      rcases h with h | ⟨_, _, h⟩
      · exact sub_error h
      rw [bind_eq_error] at h
      rcases h with h | ⟨_, _, h⟩
      · refine mapM_error (P := (· = .overflow)) (fun a _ e h => ?_) h
        simp only [splitUnit, bind_eq_error] at h
        rcases h with h | ⟨_, _, h | ⟨_, _, h⟩⟩
        · exact decMul_error h
        · exact sub_error h
        · cases h
      rw [bind_eq_error] at h
      rcases h with h | ⟨_, _, h⟩
      · refine mapM_error (P := (· = .overflow)) (fun a _ e h => ?_) h
        simp only [bind_eq_error] at h
        rcases h with h | ⟨_, _, h⟩
        · exact mulInt_error h
        · cases h
      rw [bind_eq_error] at h
      rcases h with h | ⟨_, _, h⟩
      · exact foldlM_error (P := (· = .overflow)) (fun b a _ e h => addCollected_error h) h
      · cases h
    · cases h

theorem calcRequire_error {us : Units} {n : Nat} {e : Err} (h : us.calcRequire n = .error e) : e = .overflow := by
  refine mapM_error (P := (· = .overflow)) (fun a _ e h => ?_) h
  simp only [bind_eq_error] at h
  rcases h with h | ⟨_, _, h⟩
  · exact mulInt_error h
  · cases h

theorem feeAmount_error {r : Option Nat} {n : Nat} {e : Err} (h : feeAmount r n = .error e) : e = .overflow := by
  cases r with
  | none => cases h
  | some r =>
    simp only [feeAmount, bind_eq_error] at h
    rcases h with h | ⟨_, _, h⟩
    · exact mulInt_error h
    · cases h

theorem mintFeeAmount_error {r : Option Nat} {n : Nat} {e : Err} (h : mintFeeAmount r n = .error e) : e = .overflow := by
  cases r with
  | none => cases h
  | some r =>
    simp only [mintFeeAmount, bind_eq_error] at h
    rcases h with h | ⟨_, _, h⟩
    · exact mulInt_error h
    · cases h

namespace Units

theorem takeRequired_error {fs : List (Coin × Bool)} {c : Coin} {e : Err} (h : takeRequired fs c = .error e) :
    e = .overflow ∨ (e = .insufficientFunds ∧ ∀ f ∈ fs, f.1.denom ≠ c.denom) := by
  induction fs with
  | nil =>
    simp only [takeRequired, Except.error.injEq] at h
    exact .inr ⟨h.symm, by simp⟩
  | cons f fs ih =>
    obtain ⟨f, m⟩ := f
    unfold takeRequired at h
    split at h <;> rw [bind_eq_error] at h
    · rcases h with h | ⟨_, _, h⟩
      · exact .inl (sub_error h)
      · cases h
    · rename_i hne
      rcases h with h | ⟨_, _, h⟩
      · rcases ih h with h | ⟨h1, h2⟩
        · exact .inl h
        · refine .inr ⟨h1, ?_⟩
          intro g hg
          rcases List.mem_cons.1 hg with rfl | hg
          · exact hne
          · exact h2 g hg
      · cases h

/-- Taking a coin keeps the denoms and marks only grow. -/
theorem takeRequired_keeps {fs fs' : List (Coin × Bool)} {c : Coin} (h : takeRequired fs c = .ok fs') :
    fs'.map (·.1.denom) = fs.map (·.1.denom) := by
  induction fs generalizing fs' with
  | nil => cases h
  | cons f fs ih =>
    obtain ⟨f, m⟩ := f
    unfold takeRequired at h
    split at h <;> rw [bind_eq_ok] at h
    · obtain ⟨a, _, h⟩ := h
      simp only [Except.ok.injEq] at h
      subst h
      rfl
    · obtain ⟨gs, h1, h⟩ := h
      simp only [Except.ok.injEq] at h
      subst h
      simp [ih h1]

theorem foldTake_error {req : List Coin} {fs : List (Coin × Bool)} {e : Err}
    (h : req.foldlM takeRequired fs = .error e) :
    e = .overflow ∨ (e = .insufficientFunds ∧ ∃ c ∈ req, ∀ f ∈ fs, f.1.denom ≠ c.denom) := by
  induction req generalizing fs with
  | nil => cases h
  | cons c req ih =>
    rw [List.foldlM_cons, bind_eq_error] at h
    rcases h with h | ⟨gs, h1, h⟩
    · rcases takeRequired_error h with h | ⟨h1, h2⟩
      · exact .inl h
      · exact .inr ⟨h1, c, by simp, h2⟩
    · rcases ih h with h | ⟨h2, c', h3, h4⟩
      · exact .inl h
      · refine .inr ⟨h2, c', by simp [h3], ?_⟩
        intro f hf
        have : f.1.denom ∈ gs.map (·.1.denom) := by
          rw [takeRequired_keeps h1]
          exact List.mem_map.2 ⟨f, hf, rfl⟩
        obtain ⟨g, hg, he⟩ := List.mem_map.1 this
        rw [← he]
        exact h4 g hg

/-- With distinct denoms, a coin is marked as used if it was or if it is required. -/
theorem foldTake_marks {req : List Coin} {fs gs : List (Coin × Bool)} (hn : (fs.map (·.1.denom)).Nodup)
    (h : req.foldlM takeRequired fs = .ok gs) : gs.map (·.1.denom) = fs.map (·.1.denom) ∧
    ∀ g ∈ gs, g.1.denom ∈ req.map (·.denom) → g.2 = true := by
  have mark : ∀ {fs gs : List (Coin × Bool)} {c : Coin}, (fs.map (·.1.denom)).Nodup → takeRequired fs c = .ok gs →
      ∀ g ∈ gs, (g.1.denom = c.denom → g.2 = true) ∧ (g.2 = false → ∃ f ∈ fs, f.1.denom = g.1.denom ∧ f.2 = false) := by
    intro fs
    induction fs with
    | nil => intro gs c _ h; cases h
    | cons f fs ih =>
      intro gs c hn h
      obtain ⟨f, m⟩ := f
      simp only [List.map_cons, List.nodup_cons] at hn
      unfold takeRequired at h
      split at h <;> rw [bind_eq_ok] at h
      · rename_i hd
        obtain ⟨a, _, h⟩ := h
        simp only [Except.ok.injEq] at h
        subst h
        intro g hg
        rcases List.mem_cons.1 hg with rfl | hg
        · simp
        · refine ⟨fun he => ?_, fun he => ⟨g, by simp [hg], rfl, he⟩⟩
          exact absurd (List.mem_map.2 ⟨g, hg, he.trans hd.symm⟩) hn.1
      · rename_i hd
        obtain ⟨hs, h1, h⟩ := h
        simp only [Except.ok.injEq] at h
        subst h
        intro g hg
        rcases List.mem_cons.1 hg with rfl | hg
        · exact ⟨fun he => absurd he hd, fun he => ⟨_, by simp, rfl, he⟩⟩
        · obtain ⟨i1, i2⟩ := ih hn.2 h1 g hg
          refine ⟨i1, fun he => ?_⟩
          obtain ⟨f', h2, h3⟩ := i2 he
          exact ⟨f', by simp [h2], h3⟩
  have key : ∀ {req : List Coin} {fs gs : List (Coin × Bool)}, (fs.map (·.1.denom)).Nodup →
      req.foldlM takeRequired fs = .ok gs → gs.map (·.1.denom) = fs.map (·.1.denom) ∧
      ∀ g ∈ gs, (g.1.denom ∈ req.map (·.denom) → g.2 = true) ∧
        (g.2 = false → ∃ f ∈ fs, f.1.denom = g.1.denom ∧ f.2 = false) := by
    intro req
    induction req with
    | nil =>
      intro fs gs hn h
      rw [List.foldlM_nil] at h
      cases h
      exact ⟨rfl, fun g hg => ⟨by simp, fun he => ⟨g, hg, rfl, he⟩⟩⟩
    | cons c req ih =>
      intro fs gs hn h
      rw [List.foldlM_cons, bind_eq_ok] at h
      obtain ⟨hs, h1, h⟩ := h
      have hk := takeRequired_keeps h1
      obtain ⟨i1, i2⟩ := ih (by rw [hk]; exact hn) h
      refine ⟨i1.trans hk, fun g hg => ⟨fun he => ?_, fun he => ?_⟩⟩
      · by_contra hf
        have hf : g.2 = false := by simpa using hf
        obtain ⟨x, hx, hx1, hx2⟩ := (i2 g hg).2 hf
        simp only [List.map_cons, List.mem_cons] at he
        rcases he with he | he
        · have := (mark hn h1 x hx).1 (hx1.trans he)
          rw [hx2] at this
          cases this
        · have := (i2 g hg).1 he
          rw [hf] at this
          cases this
      · obtain ⟨x, hx, hx1, hx2⟩ := (i2 g hg).2 he
        obtain ⟨f, hf1, hf2, hf3⟩ := (mark hn h1 x hx).2 hx2
        exact ⟨f, hf1, hf2.trans hx1, hf3⟩
  obtain ⟨h1, h2⟩ := key hn h
  exact ⟨h1, fun g hg => (h2 g hg).1⟩

theorem calcRefund_error {us : Units} {funds : List Coin} {n : Nat} {e : Err} (hf : (funds.map (·.denom)).Nodup)
    (h : us.calcRefund funds n = .error e) :
    e = .overflow ∨ (e = .insufficientFunds ∧ ∃ d ∈ us.map (·.1), ∀ c ∈ funds, c.denom ≠ d) ∨
      (e = .generic ∧ ∃ c ∈ funds, c.denom ∉ us.map (·.1)) := by
  simp only [calcRefund, bind_eq_error] at h
  rcases h with h | ⟨req, hreq, h⟩
  · exact .inl (calcRequire_error h)
  have hd : req.map (·.denom) = us.map (·.1) := by
    have := (mapM_eq_ok_map (P := fun e : Denom × Nat => e.2 * n / ONE < U128)
      (g := fun e => (⟨e.1, e.2 * n / ONE⟩ : Coin)) (fun a b => by
        obtain ⟨d, u⟩ := a
        simp only [bind_eq_ok, mulInt_eq_ok, Except.ok.injEq]
        constructor
        · rintro ⟨_, ⟨h1, rfl⟩, rfl⟩; exact ⟨h1, rfl⟩
        · rintro ⟨h1, rfl⟩; exact ⟨_, ⟨h1, rfl⟩, rfl⟩)).1 hreq
    rw [this.2, List.map_map]
    rfl
  have hd2 : (req.map fun c => (⟨c.denom, max c.amount 1⟩ : Coin)).map (·.denom) = us.map (·.1) := by
    rw [List.map_map, ← hd]; rfl
  rcases h with h | ⟨left, hl, h⟩
  · rcases foldTake_error h with h | ⟨h1, c, h2, h3⟩
    · exact .inl h
    · refine .inr (.inl ⟨h1, c.denom, ?_, ?_⟩)
      · rw [← hd2]; exact List.mem_map.2 ⟨c, h2, rfl⟩
      · intro f hf'
        exact h3 (f, false) (List.mem_map.2 ⟨f, hf', rfl⟩)
  · rcases h with h | ⟨_, _, h⟩
    · obtain ⟨h1, rfl⟩ := require_eq_error.1 h
      refine .inr (.inr ⟨rfl, ?_⟩)
      have hm : (funds.map fun f => (f, false)).map (·.1.denom) = funds.map (·.denom) := by
        rw [List.map_map]; rfl
      obtain ⟨k1, k2⟩ := foldTake_marks (by rw [hm]; exact hf) hl
      by_contra hc
      push Not at hc
      apply h1
      rw [List.all_eq_true]
      intro g hg
      apply k2 g hg
      rw [hd2]
      have : g.1.denom ∈ funds.map (·.denom) := by
        rw [← hm, ← k1]
        exact List.mem_map.2 ⟨g, hg, rfl⟩
      obtain ⟨c, h2, h3⟩ := List.mem_map.1 this
      rw [← h3]
      exact hc c h2
    · cases h

theorem addKey_error {us : Units} {k : Denom} {v : Nat} {e : Err} (h : us.addKey k v = .error e) : e = .overflow := by
  induction us with
  | nil => cases h
  | cons x us ih =>
    obtain ⟨d, u⟩ := x
    unfold addKey at h
    split at h <;> rw [bind_eq_error] at h
    · rcases h with h | ⟨_, _, h⟩
      · exact add_error h
      · cases h
    · rcases h with h | ⟨_, _, h⟩
      · exact ih h
      · cases h

theorem subKey_error {us : Units} {k : Denom} {v u : Nat} {e : Err} (hk : us.getKey k = some u)
    (h : us.subKey k v = .error e) : e = .overflow := by
  induction us with
  | nil => cases hk
  | cons x us ih =>
    obtain ⟨d, w⟩ := x
    unfold subKey at h
    unfold getKey at hk
    split at h <;> rw [bind_eq_error] at h
    · rcases h with h | ⟨_, _, h⟩
      · exact sub_error h
      · cases h
    · rename_i hd
      rw [if_neg hd] at hk
      rcases h with h | ⟨_, _, h⟩
      · exact ih hk h
      · cases h

theorem getKey!_error {us : Units} {k : Denom} {e : Err} (h : us.getKey! k = .error e) :
    e = .panic ∧ us.getKey k = none := by
  unfold getKey! at h
  split at h
  · cases h
  · rename_i h1
    simp only [Except.error.injEq] at h
    exact ⟨h.symm, h1⟩

theorem getKey!_ok {us : Units} {k : Denom} {u : Nat} (h : us.getKey! k = .ok u) : us.getKey k = some u := by
  unfold getKey! at h
  split at h
  · rename_i h1
    simp only [Except.ok.injEq] at h
    rw [h1, h]
  · cases h

end Units

theorem load_error {K V : Type} [DecidableEq K] {m : KV K V} {k : K} {e : Err} (h : m.load k = .error e) :
    e = .notFound ∧ m.get k = none := by
  unfold KV.load at h
  split at h
  · cases h
  · rename_i h1
    simp only [Except.error.injEq] at h
    exact ⟨h.symm, h1⟩

theorem load_ok {K V : Type} [DecidableEq K] {m : KV K V} {k : K} {v : V} (h : m.load k = .ok v) :
    m.get k = some v := by
  unfold KV.load at h
  split at h
  · rename_i h1
    simp only [Except.ok.injEq] at h
    rw [h1, h]
  · cases h

theorem checkDeflation_error {us ds : Units} {e : Err} (hn : ds.denoms.Nodup) (h : checkDeflation us ds = .error e) :
    e = .invalid ∧ ∃ d t, (d, t) ∈ ds ∧ ∀ unit, us.getKey d = some unit → unit < t := by
  induction ds generalizing us with
  | nil => cases h
  | cons x ds ih =>
    obtain ⟨d, t⟩ := x
    simp only [Units.denoms, List.map_cons, List.nodup_cons] at hn
    unfold checkDeflation at h
    split at h
    · rename_i hp
      simp only [Except.error.injEq] at h
      refine ⟨h.symm, d, t, by simp, fun unit hu => ?_⟩
      have := Units.getKey_eq_none.2 (Units.popKey_eq_none.1 hp)
      rw [this] at hu
      cases hu
    · rename_i unit rest hp
      obtain ⟨hp1, hp2⟩ := Units.popKey_eq_some hp
      rw [bind_eq_error] at h
      rcases h with h | ⟨_, _, h⟩
      · obtain ⟨h1, h2⟩ := require_eq_error.1 h
        refine ⟨h2, d, t, by simp, fun u hu => ?_⟩
        rw [hp1] at hu
        cases hu
        simpa using h1
      · obtain ⟨h1, d', t', h2, h3⟩ := ih hn.2 h
        refine ⟨h1, d', t', by simp [h2], fun u hu => h3 u ?_⟩
        rw [hp2 d' ?_, hu]
        rintro rfl
        exact hn.1 (List.mem_map.2 ⟨_, h2, rfl⟩)

theorem validate_plan_error {r : Rebalance} {us : Units} {e : Err} (h : r.validate us = .error e) :
    e = .invalid ∧ Spec.Core.PlanBad us r.deflation r.inflation := by
  unfold Rebalance.validate at h
  rw [bind_eq_error] at h
  rcases h with h | ⟨_, _, h⟩
  · obtain ⟨h1, h2⟩ := require_eq_error.1 h
    exact ⟨h2, .inl (by simpa using h1)⟩
  rw [bind_eq_error] at h
  rcases h with h | ⟨_, _, h⟩
  · obtain ⟨h1, h2⟩ := require_eq_error.1 h
    exact ⟨h2, .inr (.inl (by simpa using h1))⟩
  rw [bind_eq_error] at h
  rcases h with h | ⟨_, h0, h⟩
  · obtain ⟨h1, h2⟩ := require_eq_error.1 h
    refine ⟨h2, .inr (.inr (.inl fun hn => h1 ?_))⟩
    rw [List.map_append, List.nodup_append] at hn
    exact Units.hasDup_eq_false.2 ⟨hn.1, by simp⟩
  have hd : r.deflation.denoms.Nodup := by
    rw [require_eq_ok] at h0
    exact (Units.hasDup_eq_false.1 h0).1
  rw [bind_eq_error] at h
  rcases h with h | ⟨_, _, h⟩
  · obtain ⟨h1, h2⟩ := require_eq_error.1 h
    refine ⟨h2, .inr (.inr (.inl fun hn => h1 ?_))⟩
    rw [List.map_append, List.nodup_append] at hn
    exact Units.hasDup_eq_false.2 ⟨hn.2.1, by simp⟩
  rw [bind_eq_error] at h
  rcases h with h | ⟨_, _, h⟩
  · obtain ⟨h1, d, t, h2, h3⟩ := checkDeflation_error hd h
    refine ⟨h1, .inr (.inr (.inr ⟨d, t, h2, ?_⟩))⟩
    simpa only [Spec.lookup_eq] using h3
  · obtain ⟨h1, h2⟩ := require_eq_error.1 h
    refine ⟨h2, .inr (.inr (.inl fun hn => h1 ?_))⟩
    exact Units.hasDup_eq_false.2 ⟨hn, by simp⟩

theorem checkTargets_error {us ds : Units} {e : Err} (hb : ∀ x ∈ ds, ∃ cur, us.getKey x.1 = some cur)
    (h : checkTargets us ds = .error e) :
    e = .unableToFinalize ∧ ∃ d t u, (d, t) ∈ ds ∧ us.getKey d = some u ∧ t < u := by
  induction ds with
  | nil => cases h
  | cons x ds ih =>
    obtain ⟨d, t⟩ := x
    unfold checkTargets at h
    rw [bind_eq_error] at h
    rcases h with h | ⟨u, hu, h⟩
    · obtain ⟨_, h1⟩ := Units.getKey!_error h
      obtain ⟨cur, h2⟩ := hb (d, t) (by simp)
      rw [h1] at h2
      cases h2
    rw [bind_eq_error] at h
    rcases h with h | ⟨_, _, h⟩
    · obtain ⟨h1, h2⟩ := require_eq_error.1 h
      exact ⟨h2, d, t, u, by simp, Units.getKey!_ok hu, by simpa using h1⟩
    · obtain ⟨h1, d', t', u', h2, h3⟩ := ih (fun x hx => hb x (by simp [hx])) h
      exact ⟨h1, d', t', u', by simp [h2], h3⟩

theorem inflateLoop_error {ws res : Units} {expand : Nat} {e : Err}
    (h : inflateLoop res expand (Spec.weightSum ws) ws = .error e) :
    e = .overflow ∨ (e = .divideByZero ∧ ∃ vs, vs ≠ [] ∧ vs <:+ ws ∧ Spec.weightSum vs = 0) := by
  induction ws generalizing res expand with
  | nil => cases h
  | cons x ws ih =>
    obtain ⟨d, w⟩ := x
    unfold inflateLoop at h
    rw [bind_eq_error] at h
    rcases h with h | ⟨m, _, h⟩
    · exact .inl (decMul_error h)
    rw [bind_eq_error] at h
    rcases h with h | ⟨_, _, h⟩
    · rcases ratio_error h with h | ⟨h1, h2⟩
      · exact .inl h
      · exact .inr ⟨h1, (d, w) :: ws, by simp, List.suffix_refl _, h2⟩
    rw [bind_eq_error] at h
    rcases h with h | ⟨_, _, h⟩
    · exact .inl (Units.addKey_error h)
    rw [bind_eq_error] at h
    rcases h with h | ⟨_, _, h⟩
    · exact .inl (sub_error h)
    rw [bind_eq_error] at h
    rcases h with h | ⟨t, ht, h⟩
    · exact .inl (sub_error h)
    have : t = Spec.weightSum ws := by
      have := (sub_eq_ok.1 ht).2
      simp only [Spec.weightSum, List.map_cons, List.sum_cons] at this ⊢
      omega
    rw [this] at h
    rcases ih h with h | ⟨h1, vs, h2, h3, h4⟩
    · exact .inl h
    · exact .inr ⟨h1, vs, h2, h3.trans (List.suffix_cons _ _), h4⟩

theorem inflateReserve_error {ws res : Units} {expand : Nat} {e : Err}
    (h : inflateReserveUnit res expand ws = .error e) :
    e = .overflow ∨ (e = .divideByZero ∧ ∃ vs, vs ≠ [] ∧ vs <:+ ws ∧ Spec.weightSum vs = 0) := by
  unfold inflateReserveUnit at h
  rw [bind_eq_error] at h
  rcases h with h | ⟨t, ht, h⟩
  · refine .inl (foldlM_error (P := (· = .overflow)) (fun b a _ e h => add_error h) h)
  · have : t = Spec.weightSum ws := sumWeights_eq_ok ht
    rw [this] at h
    exact inflateLoop_error h

theorem assertCooldown_error {t : TradeInfo} {now : Nat} {e : Err} (h : t.assertCooldown now = .error e) :
    e = .overflow ∨ (e = .onTradeCooldown ∧ ∃ l, t.lastTradedAt = some l ∧ now < l + t.cooldown) := by
  unfold TradeInfo.assertCooldown at h
  split at h
  · cases h
  · rename_i l hl
    rw [bind_eq_error] at h
    rcases h with h | ⟨u, hu, h⟩
    · exact .inl (add64_error h)
    · obtain ⟨h1, h2⟩ := require_eq_error.1 h
      refine .inr ⟨h2, l, hl, ?_⟩
      have := (add64_eq_ok.1 hu).2
      omega

theorem rateChecker_error {r : Option Nat} {e : Err} (h : rateChecker r = .error e) :
    e = .invalid ∧ ∃ x, r = some x ∧ (x = 0 ∨ 1000000000000000000 ≤ x) := by
  cases r with
  | none => cases h
  | some x =>
    obtain ⟨h1, h2⟩ := require_eq_error.1 h
    rw [Spec.ONE_eq] at h1
    exact ⟨h2, x, rfl, by omega⟩

theorem checkRates_error {f : Fee} {e : Err} (h : f.checkRates = .error e) :
    e = .invalid ∧ ((∃ r, (f.mintFee = some r ∨ f.burnFee = some r) ∧ (r = 0 ∨ 1000000000000000000 ≤ r)) ∨
      ∃ sf, f.streamingFee = some sf ∧ (sf.rate = 0 ∨ 21979553000 < sf.rate)) := by
  unfold Fee.checkRates at h
  rw [bind_eq_error] at h
  rcases h with h | ⟨_, _, h⟩
  · obtain ⟨h1, x, h2, h3⟩ := rateChecker_error h
    exact ⟨h1, .inl ⟨x, .inl h2, h3⟩⟩
  rw [bind_eq_error] at h
  rcases h with h | ⟨_, _, h⟩
  · obtain ⟨h1, x, h2, h3⟩ := rateChecker_error h
    exact ⟨h1, .inl ⟨x, .inr h2, h3⟩⟩
  rw [bind_eq_error] at h
  rcases h with h | ⟨_, _, h⟩
  · obtain ⟨h1, x, h2, h3⟩ := rateChecker_error h
    obtain ⟨sf, h4, rfl⟩ := Option.map_eq_some_iff.1 h2
    exact ⟨h1, .inr ⟨sf, h4, by omega⟩⟩
  split at h
  · rename_i sf hsf
    obtain ⟨h1, h2⟩ := require_eq_error.1 h
    refine ⟨h2, .inr ⟨sf, hsf, .inr ?_⟩⟩
    simpa [MAX_STREAMING_FEE_RATE] using h1
  · cases h

end Core
end Ibcx
