import Verif.Airdrop.Lemmas
/-!
# Invariants of the airdrop contract

Not part of the model.
-/

namespace Ibcx.KV
variable {K V : Type} [DecidableEq K]

theorem sum_set_some (f : K × V → Nat) {m : KV K V} {k : K} {v v' : V} (h : m.get k = some v) :
    ((m.set k v').map f).sum + f (k, v) = (m.map f).sum + f (k, v') := by
  induction m with
  | nil => cases h
  | cons e m ih =>
    obtain ⟨k', w⟩ := e
    simp only [get] at h
    simp only [set]
    split at h
    · rename_i hk
      subst hk
      cases h
      simp
      omega
    · rename_i hk
      rw [if_neg hk]
      have := ih h
      simp
      omega

theorem sum_set_none (f : K × V → Nat) {m : KV K V} {k : K} {v' : V} (h : m.get k = none) :
    ((m.set k v').map f).sum = (m.map f).sum + f (k, v') := by
  induction m with
  | nil => simp [set]
  | cons e m ih =>
    obtain ⟨k', w⟩ := e
    simp only [get] at h
    simp only [set]
    split at h
    · cases h
    · rename_i hk
      rw [if_neg hk]
      have := ih h
      simp
      omega

end Ibcx.KV

namespace Ibcx.Airdrop
open Ibcx Ibcx.Spec

/-- How one message changes the state. -/
inductive Change (c : Crypto) (s : State) (env : Env) (info : Info) : ExecMsg → State → List Msg → Prop
  | register (p : RegisterPayload) (a : Drop) (new : NewDrop c env info p a)
      (free : ∀ l, a.label = some l → s.labels.get l = none) (max : s.latest + 1 < 2 ^ 64) :
      Change c s env info (.register p) { s with
          labels := (match a.label with | some l => s.labels.set l s.latest | none => s.labels)
          drops := s.drops.set s.latest a
          latest := s.latest + 1 } []
  | fund (id : DropId) (n : Nat) (a : Drop) (extra : Nat) (ht : target s id = some n) (ha : s.drops.get n = some a)
      (hc : a.creator = info.sender) (ho : a.closedAt = none) (hf : info.funds = [⟨a.denom, extra⟩]) (hx : extra ≠ 0)
      (max : a.totalAmount + extra < U128) :
      Change c s env info (.fund id)
        { s with drops := s.drops.set n { a with totalAmount := a.totalAmount + extra } } []
  | claim (p : ClaimPayload) (n : Nat) (a : Drop) (hv : ∀ x, claimAccount p = some x → env.validAddr x = true)
      (ht : target s (claimDrop p) = some n) (ha : s.drops.get n = some a) (ho : a.closedAt = none)
      (hk : s.claims.get (n, claimKey info p) = none) (hp : Proven c info a p)
      (max : a.totalClaimed + claimAmount p < U128) (hle : a.totalClaimed + claimAmount p ≤ a.totalAmount) :
      Change c s env info (.claim p)
        { s with
          drops := s.drops.set n { a with totalClaimed := a.totalClaimed + claimAmount p }
          claims := s.claims.set (n, claimKey info p) (claimAmount p) }
        [.send (claimer info p) [⟨a.denom, claimAmount p⟩]]
  | close (id : DropId) (n : Nat) (a : Drop) (ht : target s id = some n) (ha : s.drops.get n = some a)
      (hc : a.creator = info.sender) (ho : a.closedAt = none) (hle : a.totalClaimed ≤ a.totalAmount) :
      Change c s env info (.close id)
        { s with drops := s.drops.set n { a with closedAt := some env.height } }
        [.send a.creator [⟨a.denom, a.totalAmount - a.totalClaimed⟩]]

theorem execute_change {c : Crypto} {s s' : State} {env : Env} {info : Info} {msg : ExecMsg} {ms : List Msg} :
    execute c s env info msg = .ok (s', ms) ↔ Change c s env info msg s' ms := by
  constructor
  · intro h
    cases msg with
    | register p =>
      obtain ⟨a, h1, h2, h3, rfl, rfl⟩ := register_eq_ok.1 h
      exact .register p a h1 h2 h3
    | fund id =>
      obtain ⟨n, a, x, h1, h2, h3, h4, h5, h6, h7, rfl, rfl⟩ := fund_eq_ok.1 h
      exact .fund id n a x h1 h2 h3 h4 h5 h6 h7
    | claim p =>
      obtain ⟨n, a, h1, h2, h3, h4, h5, h6, h7, h8, rfl, rfl⟩ := claim_eq_ok.1 h
      exact .claim p n a h1 h2 h3 h4 h5 h6 h7 h8
    | close id =>
      obtain ⟨n, a, h1, h2, h3, h4, h5, rfl, rfl⟩ := close_eq_ok.1 h
      exact .close id n a h1 h2 h3 h4 h5
  · intro h
    cases h with
    | register p a h1 h2 h3 => exact register_eq_ok.2 ⟨a, h1, h2, h3, rfl, rfl⟩
    | fund id n a x h1 h2 h3 h4 h5 h6 h7 => exact fund_eq_ok.2 ⟨n, a, x, h1, h2, h3, h4, h5, h6, h7, rfl, rfl⟩
    | claim p n a h1 h2 h3 h4 h5 h6 h7 h8 => exact claim_eq_ok.2 ⟨n, a, h1, h2, h3, h4, h5, h6, h7, h8, rfl, rfl⟩
    | close id n a h1 h2 h3 h4 h5 => exact close_eq_ok.2 ⟨n, a, h1, h2, h3, h4, h5, rfl, rfl⟩

/-- Facts true in every reachable state. -/
structure Inv (s : State) : Prop where
  ids : ∀ n, s.drops.get n = none ↔ s.latest ≤ n
  claimedLe : ∀ n a, s.drops.get n = some a → a.totalClaimed ≤ a.totalAmount
  recorded : ∀ n a, s.drops.get n = some a → Spec.recorded n s = a.totalClaimed
  noRecord : ∀ n, s.drops.get n = none → Spec.recorded n s = 0
  labelTo : ∀ l n, s.labels.get l = some n → ∃ a, s.drops.get n = some a ∧ a.label = some l
  labelOf : ∀ n a l, s.drops.get n = some a → a.label = some l → s.labels.get l = some n
  owned : ∀ n a l, s.drops.get n = some a → a.label = some l → ∃ x, l = a.creator ++ "/" ++ x

theorem inv_initial : Inv initial := by
  constructor <;> simp [initial, KV.get, Spec.recorded]

/-- Updating an existing airdrop without touching its label and creator. -/
theorem Inv.update {s : State} (hi : Inv s) {n : Nat} {a a' : Drop} (ha : s.drops.get n = some a)
    (h1 : a'.label = a.label) (h2 : a'.creator = a.creator) (h3 : a'.totalClaimed ≤ a'.totalAmount)
    (cl : KV (Nat × String) Nat)
    (h4 : ∀ m, Spec.recorded m { s with claims := cl } = Spec.recorded m s + (if m = n then a'.totalClaimed - a.totalClaimed else 0))
    (h5 : a.totalClaimed ≤ a'.totalClaimed) :
    Inv { s with drops := s.drops.set n a', claims := cl } := by
  have hrec : ∀ m, Spec.recorded m { s with drops := s.drops.set n a', claims := cl }
      = Spec.recorded m { s with claims := cl } := fun _ => rfl
  constructor
  · intro m
    simp only [KV.get_set]
    split
    · rename_i h; subst h
      simp only [reduceCtorEq, false_iff]
      rw [← hi.ids, ha]; simp
    · exact hi.ids m
  · intro m b
    simp only [KV.get_set]
    split
    · rintro ⟨⟩; exact h3
    · exact hi.claimedLe m b
  · intro m b
    rw [hrec, h4]
    simp only [KV.get_set]
    split
    · rename_i h
      rintro ⟨⟩
      subst h
      rw [if_pos rfl, hi.recorded _ a ha]
      omega
    · rename_i h
      intro hb
      rw [if_neg (fun e => h e.symm), hi.recorded m b hb, Nat.add_zero]
  · intro m
    rw [hrec, h4]
    simp only [KV.get_set]
    split
    · intro h; cases h
    · rename_i h
      intro hb
      rw [if_neg (fun e => h e.symm), hi.noRecord m hb]
  · intro l m hl
    obtain ⟨b, h6, h7⟩ := hi.labelTo l m hl
    simp only [KV.get_set]
    split
    · rename_i h; subst h
      rw [ha] at h6; cases h6
      exact ⟨a', rfl, h1.trans h7⟩
    · exact ⟨b, h6, h7⟩
  · intro m b l
    simp only [KV.get_set]
    split
    · rename_i h; subst h
      rintro ⟨⟩ hl
      exact hi.labelOf _ a l ha (h1 ▸ hl)
    · exact hi.labelOf m b l
  · intro m b l
    simp only [KV.get_set]
    split
    · rename_i h; subst h
      rintro ⟨⟩ hl
      rw [h2]
      exact hi.owned _ a l ha (h1 ▸ hl)
    · exact hi.owned m b l

theorem Inv.change {c : Crypto} {s s' : State} {env : Env} {info : Info} {msg : ExecMsg} {ms : List Msg} (hi : Inv s)
    (h : Change c s env info msg s' ms) : Inv s' := by
  cases h with
  | register p a new free max =>
    have hnone : s.drops.get s.latest = none := (hi.ids _).2 (le_refl _)
    constructor
    · intro m
      simp only [KV.get_set]
      split
      · rename_i h; subst h; simp
      · rename_i h; rw [hi.ids]; omega
    · intro m b
      simp only [KV.get_set]
      split
      · rintro ⟨⟩; rw [new.claimed]; exact Nat.zero_le _
      · exact hi.claimedLe m b
    · intro m b
      show _ → Spec.recorded m s = _
      simp only [KV.get_set]
      split
      · rename_i h; subst h
        rintro ⟨⟩
        rw [new.claimed]; exact hi.noRecord _ hnone
      · exact hi.recorded m b
    · intro m
      show _ → Spec.recorded m s = _
      simp only [KV.get_set]
      split
      · intro h; cases h
      · exact hi.noRecord m
    · intro l m
      cases hl : a.label with
      | none =>
        simp only
        intro h1
        obtain ⟨b, h6, h7⟩ := hi.labelTo l m h1
        refine ⟨b, ?_, h7⟩
        rw [KV.get_set_ne _ _ (by rintro rfl; rw [hnone] at h6; cases h6)]
        exact h6
      | some l' =>
        simp only [KV.get_set]
        split
        · rename_i h; subst h
          rintro ⟨⟩
          exact ⟨a, by simp, hl⟩
        · intro h1
          obtain ⟨b, h6, h7⟩ := hi.labelTo l m h1
          refine ⟨b, ?_, h7⟩
          rw [if_neg (by rintro rfl; rw [hnone] at h6; cases h6)]
          exact h6
    · intro m b l
      simp only [KV.get_set]
      split
      · rename_i h; subst h
        rintro ⟨⟩ hl
        simp [hl]
      · intro h1 h2
        have h3 := hi.labelOf m b l h1 h2
        cases hl : a.label with
        | none => exact h3
        | some l' =>
          simp only [KV.get_set]
          rw [if_neg]
          · exact h3
          · rintro rfl
            rw [free _ hl] at h3; cases h3
    · intro m b l
      simp only [KV.get_set]
      split
      · rename_i h; subst h
        rintro ⟨⟩ hl
        have := new.payload
        rw [new.creator]
        cases p <;> simp only at this
        · rw [this.2.2.2] at hl
          obtain ⟨x, _, rfl⟩ := Option.map_eq_some_iff.1 hl
          exact ⟨x, rfl⟩
        · rw [this.2.2.2] at hl
          obtain ⟨x, _, rfl⟩ := Option.map_eq_some_iff.1 hl
          exact ⟨x, rfl⟩
      · exact hi.owned m b l
  | fund id n a extra ht ha hc ho hf hx max =>
    exact hi.update (a' := { a with totalAmount := a.totalAmount + extra }) ha rfl rfl
      (Nat.le_trans (hi.claimedLe n a ha) (Nat.le_add_right _ _)) s.claims (by intro m; simp) (le_refl _)
  | claim p n a hv ht ha ho hk hp max hle =>
    refine hi.update (a' := { a with totalClaimed := a.totalClaimed + claimAmount p }) ha rfl rfl hle _ ?_
      (Nat.le_add_right _ _)
    intro m
    simp only [Spec.recorded]
    rw [KV.sum_set_none _ hk]
    simp only [Nat.add_sub_cancel_left]
    congr 1
    by_cases e : n = m
    · rw [if_pos e, if_pos e.symm]
    · rw [if_neg e, if_neg (Ne.symm e)]
  | close id n a ht ha hc ho hle =>
    exact hi.update (a' := { a with closedAt := some env.height }) ha rfl rfl hle s.claims (by intro m; simp) (le_refl _)

theorem step_cases (c : Crypto) (s : State) (call : Call) :
    (step c s call = (s, []) ∧ ∃ e, execute c s call.env call.info call.msg = .error e) ∨
    (∃ s' ms, step c s call = (s', ms) ∧ execute c s call.env call.info call.msg = .ok (s', ms) ∧
      Change c s call.env call.info call.msg s' ms) := by
  unfold step
  cases h : execute c s call.env call.info call.msg with
  | error e => left; simp
  | ok o =>
    right
    exact ⟨o.1, o.2, rfl, rfl, execute_change.1 h⟩

theorem Inv.step {c : Crypto} {s : State} (hi : Inv s) (call : Call) : Inv (Airdrop.step c s call).1 := by
  rcases step_cases c s call with ⟨e, _⟩ | ⟨s', ms, e, _, h⟩
  · rw [e]; exact hi
  · rw [e]; exact hi.change h

theorem Inv.run {c : Crypto} {s : State} (hi : Inv s) (calls : List Call) : Inv (Airdrop.run c s calls).1 := by
  induction calls generalizing s with
  | nil => exact hi
  | cons call calls ih => exact ih (hi.step call)

theorem run_append (c : Crypto) (s : State) (a b : List Call) :
    (run c s (a ++ b)).1 = (run c (run c s a).1 b).1 := by
  induction a generalizing s with
  | nil => rfl
  | cons x a ih => exact ih _

theorem Reachable.inv {c : Crypto} {s : State} (h : Reachable c s) : Inv s := by
  obtain ⟨calls, rfl⟩ := h
  exact inv_initial.run calls

theorem Reachable.run {c : Crypto} {s : State} (h : Reachable c s) (calls : List Call) :
    Reachable c (Airdrop.run c s calls).1 := by
  obtain ⟨cs, rfl⟩ := h
  exact ⟨cs ++ calls, run_append c _ _ _⟩

theorem Reachable.execute {c : Crypto} {s s' : State} {env : Env} {info : Info} {msg : ExecMsg} {ms : List Msg}
    (h : Reachable c s) (hx : Airdrop.execute c s env info msg = .ok (s', ms)) : Reachable c s' := by
  have := h.run [⟨env, info, msg⟩]
  simpa [Airdrop.run, Airdrop.step, hx] using this

/-- What never changes or only grows. -/
structure Grows (s s' : State) : Prop where
  latest : s.latest ≤ s'.latest
  drops : ∀ n a, s.drops.get n = some a → ∃ a', s'.drops.get n = some a' ∧ a'.kind = a.kind ∧
    a'.creator = a.creator ∧ a'.denom = a.denom ∧ a'.merkleRoot = a.merkleRoot ∧ a'.label = a.label ∧
    a'.createdAt = a.createdAt ∧ a.totalAmount ≤ a'.totalAmount ∧ a.totalClaimed ≤ a'.totalClaimed ∧
    (a.closedAt ≠ none → a' = a)
  labels : ∀ l n, s.labels.get l = some n → s'.labels.get l = some n
  claims : ∀ k x, s.claims.get k = some x → s'.claims.get k = some x

theorem Grows.refl (s : State) : Grows s s :=
  ⟨le_refl _, fun _ a h => ⟨a, h, rfl, rfl, rfl, rfl, rfl, rfl, le_refl _, le_refl _, fun _ => rfl⟩, fun _ _ h => h,
    fun _ _ h => h⟩

theorem Grows.trans {s t u : State} (h1 : Grows s t) (h2 : Grows t u) : Grows s u := by
  refine ⟨h1.latest.trans h2.latest, ?_, fun l n h => h2.labels l n (h1.labels l n h),
    fun k x h => h2.claims k x (h1.claims k x h)⟩
  intro n a ha
  obtain ⟨b, g0, g1, g2, g3, g4, g5, g6, g7, g8, g9⟩ := h1.drops n a ha
  obtain ⟨d, k0, k1, k2, k3, k4, k5, k6, k7, k8, k9⟩ := h2.drops n b g0
  refine ⟨d, k0, k1.trans g1, k2.trans g2, k3.trans g3, k4.trans g4, k5.trans g5, k6.trans g6, g7.trans k7,
    g8.trans k8, ?_⟩
  intro hc
  have e := g9 hc
  subst e
  exact k9 hc

theorem grows_set {s : State} {n : Nat} {a a' : Drop} {cl : KV (Nat × String) Nat} (ha : s.drops.get n = some a)
    (hcl : ∀ k x, s.claims.get k = some x → cl.get k = some x)
    (h : a'.kind = a.kind ∧ a'.creator = a.creator ∧ a'.denom = a.denom ∧ a'.merkleRoot = a.merkleRoot ∧
      a'.label = a.label ∧ a'.createdAt = a.createdAt ∧ a.totalAmount ≤ a'.totalAmount ∧
      a.totalClaimed ≤ a'.totalClaimed) (ho : a.closedAt = none) :
    Grows s { s with drops := s.drops.set n a', claims := cl } := by
  refine ⟨le_refl _, ?_, fun _ _ h => h, hcl⟩
  intro m b hb
  by_cases e : n = m
  · subst e
    rw [ha] at hb; cases hb
    obtain ⟨g1, g2, g3, g4, g5, g6, g7, g8⟩ := h
    exact ⟨a', by simp, g1, g2, g3, g4, g5, g6, g7, g8, fun hc => absurd ho hc⟩
  · refine ⟨b, ?_, rfl, rfl, rfl, rfl, rfl, rfl, le_refl _, le_refl _, fun _ => rfl⟩
    show (s.drops.set n a').get m = some b
    rw [KV.get_set_ne _ _ e]; exact hb

theorem Change.grows {c : Crypto} {s s' : State} {env : Env} {info : Info} {msg : ExecMsg} {ms : List Msg} (hi : Inv s)
    (h : Change c s env info msg s' ms) : Grows s s' := by
  cases h with
  | register p a new free max =>
    refine ⟨Nat.le_succ _, ?_, ?_, fun _ _ h => h⟩
    · intro n b hb
      refine ⟨b, ?_, rfl, rfl, rfl, rfl, rfl, rfl, le_refl _, le_refl _, fun _ => rfl⟩
      show (s.drops.set s.latest a).get n = some b
      rw [KV.get_set_ne _ _ (by rintro rfl; rw [(hi.ids _).2 (le_refl _)] at hb; cases hb)]
      exact hb
    · intro l n hl
      cases hal : a.label with
      | none => exact hl
      | some l' =>
        show (s.labels.set l' s.latest).get l = some n
        rw [KV.get_set_ne _ _ (by rintro rfl; rw [free _ hal] at hl; cases hl)]
        exact hl
  | fund id n a extra ht ha hc ho hf hx max =>
    exact grows_set (a' := { a with totalAmount := a.totalAmount + extra }) ha (fun _ _ h => h)
      ⟨rfl, rfl, rfl, rfl, rfl, rfl, Nat.le_add_right _ _, le_refl _⟩ ho
  | claim p n a hv ht ha ho hk hp max hle =>
    refine grows_set (a' := { a with totalClaimed := a.totalClaimed + claimAmount p }) ha ?_
      ⟨rfl, rfl, rfl, rfl, rfl, rfl, le_refl _, Nat.le_add_right _ _⟩ ho
    intro k x hx
    rw [KV.get_set_ne _ _ (by rintro rfl; rw [hk] at hx; cases hx)]
    exact hx
  | close id n a ht ha hc ho hle =>
    exact grows_set (a' := { a with closedAt := some env.height }) ha (fun _ _ h => h)
      ⟨rfl, rfl, rfl, rfl, rfl, rfl, le_refl _, le_refl _⟩ ho

theorem grows_run {c : Crypto} {s : State} (hi : Inv s) (calls : List Call) : Grows s (run c s calls).1 := by
  induction calls generalizing s with
  | nil => exact Grows.refl s
  | cons call calls ih =>
    have h1 := ih (hi.step (c := c) call)
    refine Grows.trans ?_ h1
    rcases step_cases c s call with ⟨e, _⟩ | ⟨s', ms, e, _, h⟩
    · rw [e]; exact Grows.refl s
    · rw [e]; exact h.grows hi

end Ibcx.Airdrop
