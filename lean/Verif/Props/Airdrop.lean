import Verif.Airdrop.Inv
import Verif.Props.AirdropDemo
/-!
# Properties of the airdrop contract: money, claims, closing, identity

C31, C32, C34, C35, C36, C39, C40.
-/

namespace Ibcx.Props
open Ibcx Ibcx.Airdrop Ibcx.Spec

/-! ### Bookkeeping over histories -/

/-- Total amount recorded for an airdrop. -/
private def amountOfDrop (s : State) (n : Nat) : Nat := ((s.drops.get n).map (·.totalAmount)).getD 0

/-- Claimed amount recorded for an airdrop. -/
private def claimedOfDrop (s : State) (n : Nat) : Nat := ((s.drops.get n).map (·.totalClaimed)).getD 0

/-- What a closed airdrop returned. -/
private def refundOfDrop (s : State) (n : Nat) : Nat :=
  ((s.drops.get n).map (fun a => if a.closedAt = none then 0 else a.totalAmount - a.totalClaimed)).getD 0

private theorem books (c : Crypto) (n : Nat) (calls : List Call) : ∀ s, Airdrop.Inv s →
    amountOfDrop (run c s calls).1 n = amountOfDrop s n + fundedBy c n s calls ∧
    claimedOfDrop (run c s calls).1 n = claimedOfDrop s n + claimedBy c n s calls ∧
    refundOfDrop (run c s calls).1 n = refundOfDrop s n + refundedBy c n s calls := by
  induction calls with
  | nil => intro s _; simp [run, fundedBy, claimedBy, refundedBy]
  | cons call calls ih =>
    intro s hi
    obtain ⟨i1, i2, i3⟩ := ih _ (hi.step (c := c) call)
    simp only [run, fundedBy, claimedBy, refundedBy]
    rcases step_cases c s call with ⟨e, er, hx⟩ | ⟨s', ms, e, hx, h⟩
    · rw [e] at i1 i2 i3 ⊢
      simp only [hx, Nat.zero_add]
      exact ⟨i1, i2, i3⟩
    · rw [e] at i1 i2 i3 ⊢
      simp only [hx] at i1 i2 i3 ⊢
      rw [i1, i2, i3]
      generalize hm : call.msg = msg at h
      cases h with
      | register p a new free max =>
        simp only [Nat.zero_add]
        have hnone : s.drops.get s.latest = none := (hi.ids _).2 (le_refl _)
        by_cases en : s.latest = n
        · subst en
          simp [amountOfDrop, claimedOfDrop, refundOfDrop, hnone, new.claimed, new.notClosed, attached, new.paid.1]
        · simp [amountOfDrop, claimedOfDrop, refundOfDrop, KV.get_set_ne _ _ en, en]
      | fund id m a extra ht ha hc ho hf hx max =>
        by_cases en : m = n
        · subst en
          simp [amountOfDrop, claimedOfDrop, refundOfDrop, ha, ht, ho, attached, hf]
          omega
        · simp [amountOfDrop, claimedOfDrop, refundOfDrop, KV.get_set_ne _ _ en, ht, en]
      | claim p m a hv ht ha ho hk hp max hle =>
        by_cases en : m = n
        · subst en
          simp [amountOfDrop, claimedOfDrop, refundOfDrop, ha, ht, ho, outflow]
          omega
        · simp [amountOfDrop, claimedOfDrop, refundOfDrop, KV.get_set_ne _ _ en, ht, en]
      | close id m a ht ha hc ho hle =>
        by_cases en : m = n
        · subst en
          simp [amountOfDrop, claimedOfDrop, refundOfDrop, ha, ht, ho, outflow]
        · simp [amountOfDrop, claimedOfDrop, refundOfDrop, KV.get_set_ne _ _ en, ht, en]

/-- The history of the examples. -/
def dropHistory : List Call :=
  [Demo.reg, Demo.fund, Demo.claimAlice, Demo.claimAlice, Demo.claimBob, Demo.close, Demo.claimBob]

/-! ### C31 -/

/-- **C31.** In every history and for every airdrop: the records are exactly what was paid in by accepted
registrations and fundings and what was paid out by accepted claims, and no more was claimed than was funded. -/
theorem C31_never_pays_more_than_funded (c : Crypto) (calls : List Call) (n : Nat) :
    claimedBy c n initial calls ≤ fundedBy c n initial calls ∧
    ∀ a, (run c initial calls).1.drops.get n = some a →
      a.totalAmount = fundedBy c n initial calls ∧ a.totalClaimed = claimedBy c n initial calls := by
  obtain ⟨h1, h2, _⟩ := books c n calls initial inv_initial
  have z1 : amountOfDrop initial n = 0 := rfl
  have z2 : claimedOfDrop initial n = 0 := rfl
  rw [z1, Nat.zero_add] at h1
  rw [z2, Nat.zero_add] at h2
  constructor
  · cases ha : (run c initial calls).1.drops.get n with
    | none => simp [claimedOfDrop, ha] at h2; omega
    | some a =>
      have := (inv_initial.run (c := c) calls).claimedLe n a ha
      simp [claimedOfDrop, amountOfDrop, ha] at h1 h2
      omega
  · intro a ha
    simp [claimedOfDrop, amountOfDrop, ha] at h1 h2
    exact ⟨h1, h2⟩

example : fundedBy Demo.crypto 0 initial dropHistory = 80 ∧ claimedBy Demo.crypto 0 initial dropHistory = 60 := by
  decide +kernel

/-! ### C32 -/

private theorem claimed_count (c : Crypto) (n : Nat) (k : String) (calls : List Call) : ∀ s, Airdrop.Inv s →
    timesClaimed c n k s calls ≤ 1 ∧ (s.claims.get (n, k) ≠ none → timesClaimed c n k s calls = 0) := by
  induction calls with
  | nil => intro s _; simp [timesClaimed]
  | cons call calls ih =>
    intro s hi
    obtain ⟨i1, i2⟩ := ih _ (hi.step (c := c) call)
    simp only [timesClaimed]
    rcases step_cases c s call with ⟨e, er, hx⟩ | ⟨s', ms, e, hx, h⟩
    · rw [e] at i1 i2 ⊢
      simp only [hx, Nat.zero_add]
      exact ⟨i1, i2⟩
    · rw [e] at i1 i2 ⊢
      simp only [hx] at i1 i2 ⊢
      generalize hm : call.msg = msg at h
      cases h with
      | register p a new free max => simp only [Nat.zero_add]; exact ⟨i1, i2⟩
      | fund id m a extra ht ha hc ho hf hx max => simp only [Nat.zero_add]; exact ⟨i1, i2⟩
      | close id m a ht ha hc ho hle => simp only [Nat.zero_add]; exact ⟨i1, i2⟩
      | claim p m a hv ht ha ho hk hp max hle =>
        simp only [ht, Option.some.injEq]
        simp only at i1 i2
        by_cases en : m = n ∧ claimKey call.info p = k
        · obtain ⟨rfl, rfl⟩ := en
          have := i2 (by simp)
          rw [this]
          simp [hk]
        · rw [if_neg en, Nat.zero_add]
          refine ⟨i1, fun hne => i2 ?_⟩
          rw [KV.get_set_ne]
          · exact hne
          · intro e'
            simp only [Prod.mk.injEq] at e'
            exact en e'

/-- **C32 (once).** In every history at most one claim per airdrop and claim key is accepted. -/
theorem C32_paid_at_most_once (c : Crypto) (calls : List Call) (n : Nat) (k : String) :
    timesClaimed c n k initial calls ≤ 1 :=
  (claimed_count c n k calls initial inv_initial).1

example : timesClaimed Demo.crypto 0 "alice" initial dropHistory = 1 := by
  decide +kernel

/-- **C32 (answers never change).** An amount answered by `GetClaim` is answered forever. -/
theorem C32_answer_is_permanent {c : Crypto} {s : State} (hr : Reachable c s) {id : DropId} {k : String} {x : Nat}
    (h : getClaim s id k = .ok x) (calls : List Call) : getClaim (run c s calls).1 id k = .ok x := by
  have hi := hr.inv
  have hg := grows_run (c := c) hi calls
  simp only [getClaim, bind_eq_ok, KV.load_eq_ok] at h ⊢
  obtain ⟨⟨n, a⟩, h1, h2⟩ := h
  obtain ⟨ht, ha⟩ := loadAirdrop_eq_ok.1 h1
  obtain ⟨a', ha', _⟩ := hg.drops n a ha
  refine ⟨(n, a'), loadAirdrop_eq_ok.2 ⟨?_, ha'⟩, hg.claims _ _ h2⟩
  cases id with
  | id m => exact ht
  | label l => exact hg.labels _ _ ht

/-- Alice's claim is answered before and after the airdrop is closed. -/
example : Reachable Demo.crypto (run Demo.crypto initial [Demo.reg, Demo.fund, Demo.claimAlice]).1 ∧
    getClaim (run Demo.crypto initial [Demo.reg, Demo.fund, Demo.claimAlice]).1 (.id 0) "alice" = .ok 60 ∧
    getClaim (run Demo.crypto initial [Demo.reg, Demo.fund, Demo.claimAlice, Demo.close]).1 (.id 0) "alice" = .ok 60 :=
  ⟨⟨_, rfl⟩, by decide +kernel, by decide +kernel⟩

/-- **C32 (the answer is the amount paid).** After an accepted claim `GetClaim` answers the amount paid. -/
theorem C32_answer_is_amount {c : Crypto} {s s' : State} {env : Env} {info : Info} {p : ClaimPayload} {ms : List Msg}
    (h : execute c s env info (.claim p) = .ok (s', ms)) :
    getClaim s' (claimDrop p) (claimKey info p) = .ok (outflow ms) := by
  cases execute_change.1 h with
  | claim p n a hv ht ha ho hk hp max hle =>
    simp only [getClaim, bind_eq_ok, KV.load_eq_ok]
    refine ⟨(n, _), loadAirdrop_eq_ok.2 ⟨?_, KV.get_set_self _ _ _⟩, ?_⟩
    · cases hd : claimDrop p <;> rw [hd] at ht <;> exact ht
    · simp [outflow]

/-- Right after Alice's claim 60 is answered, which is what was sent. -/
example : (execute Demo.crypto (run Demo.crypto initial [Demo.reg, Demo.fund]).1 Demo.claimAlice.env Demo.claimAlice.info
      Demo.claimAlice.msg).map (fun o => (getClaim o.1 (.id 0) "alice", outflow o.2)) = .ok (.ok 60, 60) := by
  decide +kernel

/-- **C32 (sum).** The recorded claims of an airdrop sum to its total claimed. -/
theorem C32_records_sum_to_total {c : Crypto} {s : State} (hr : Reachable c s) {n : Nat} {a : Drop}
    (h : s.drops.get n = some a) : recorded n s = a.totalClaimed :=
  hr.inv.recorded n a h

example : getClaim (run Demo.crypto initial dropHistory).1 (.label "carol/gift") "alice" = .ok 60 ∧
    recorded 0 (run Demo.crypto initial dropHistory).1 = 60 := by
  decide +kernel

/-! ### C34 -/

/-- **C34 (refund).** An accepted close comes from the creator of an open airdrop and sends exactly funded minus
claimed, in the denom of the airdrop, to the creator. -/
theorem C34_close_returns_remainder {c : Crypto} {s s' : State} {env : Env} {info : Info} {id : DropId}
    {ms : List Msg} (h : execute c s env info (.close id) = .ok (s', ms)) :
    ∃ n a, target s id = some n ∧ s.drops.get n = some a ∧ a.creator = info.sender ∧ a.closedAt = none ∧
      ms = [.send info.sender [⟨a.denom, a.totalAmount - a.totalClaimed⟩]] ∧
      s'.drops.get n = some { a with closedAt := some env.height } := by
  cases execute_change.1 h with
  | close id n a ht ha hc ho hle =>
    exact ⟨n, a, ht, ha, hc, ho, by rw [hc], by simp⟩

/-- Of 80 uosmo 60 are claimed; the closing returns 20. -/
example : (execute Demo.crypto (run Demo.crypto initial [Demo.reg, Demo.fund, Demo.claimAlice]).1 Demo.close.env
      Demo.close.info Demo.close.msg).map (·.2) = .ok [.send "carol" [⟨"uosmo", 20⟩]] := by
  decide +kernel

/-- **C34 (final).** Once an airdrop is closed, whatever is called afterwards, its record stays the same and no
claim, fund or close addressed to it is accepted. -/
theorem C34_close_is_final {c : Crypto} {s : State} (hr : Reachable c s) {n : Nat} {a : Drop}
    (h : s.drops.get n = some a) (hc : a.closedAt ≠ none) (calls : List Call) :
    (run c s calls).1.drops.get n = some a ∧
    ∀ env info,
      (∀ p out, target (run c s calls).1 (claimDrop p) = some n →
        execute c (run c s calls).1 env info (.claim p) ≠ .ok out) ∧
      (∀ id out, target (run c s calls).1 id = some n → execute c (run c s calls).1 env info (.fund id) ≠ .ok out) ∧
      (∀ id out, target (run c s calls).1 id = some n → execute c (run c s calls).1 env info (.close id) ≠ .ok out) := by
  obtain ⟨a', h1, _, _, _, _, _, _, _, _, h2⟩ := (grows_run (c := c) hr.inv calls).drops n a h
  obtain rfl := h2 hc
  refine ⟨h1, fun env info => ⟨?_, ?_, ?_⟩⟩
  · rintro p ⟨s', ms⟩ ht hx
    cases execute_change.1 hx with
    | claim p m b hv ht' ha ho hk hp max hle =>
      rw [ht] at ht'; cases ht'
      rw [h1] at ha; cases ha
      exact hc ho
  · rintro id ⟨s', ms⟩ ht hx
    cases execute_change.1 hx with
    | fund id m b extra ht' ha hcr ho hf hx max =>
      rw [ht] at ht'; cases ht'
      rw [h1] at ha; cases ha
      exact hc ho
  · rintro id ⟨s', ms⟩ ht hx
    cases execute_change.1 hx with
    | close id m b ht' ha hcr ho hle =>
      rw [ht] at ht'; cases ht'
      rw [h1] at ha; cases ha
      exact hc ho

/-- After the closing Bob's claim, more funds and a second closing are refused. -/
example : Reachable Demo.crypto (run Demo.crypto initial [Demo.reg, Demo.close]).1 ∧
    ((run Demo.crypto initial [Demo.reg, Demo.close]).1.drops.get 0).map (·.closedAt) = some (some 13) ∧
    (execute Demo.crypto (run Demo.crypto initial [Demo.reg, Demo.close]).1 Demo.claimBob.env Demo.claimBob.info
      Demo.claimBob.msg).toOption = none ∧
    (execute Demo.crypto (run Demo.crypto initial [Demo.reg, Demo.close]).1 Demo.fund.env Demo.fund.info
      Demo.fund.msg).toOption = none ∧
    (execute Demo.crypto (run Demo.crypto initial [Demo.reg, Demo.close]).1 Demo.close.env Demo.close.info
      Demo.close.msg).toOption = none :=
  ⟨⟨_, rfl⟩, by decide +kernel, by decide +kernel, by decide +kernel, by decide +kernel⟩

/-- **C34 (nothing lost).** In every history, for a closed airdrop the claims paid plus the refund are exactly what
was funded; for an open one nothing was refunded. -/
theorem C34_claims_plus_refund (c : Crypto) (calls : List Call) (n : Nat) (a : Drop)
    (h : (run c initial calls).1.drops.get n = some a) :
    (a.closedAt ≠ none → claimedBy c n initial calls + refundedBy c n initial calls = fundedBy c n initial calls) ∧
    (a.closedAt = none → refundedBy c n initial calls = 0) := by
  obtain ⟨h1, h2, h3⟩ := books c n calls initial inv_initial
  have z1 : amountOfDrop initial n = 0 := rfl
  have z2 : claimedOfDrop initial n = 0 := rfl
  have z3 : refundOfDrop initial n = 0 := rfl
  rw [z1, Nat.zero_add] at h1
  rw [z2, Nat.zero_add] at h2
  rw [z3, Nat.zero_add] at h3
  have := (inv_initial.run (c := c) calls).claimedLe n a h
  simp only [amountOfDrop, claimedOfDrop, refundOfDrop, h, Option.map_some, Option.getD_some] at h1 h2 h3
  constructor
  · intro hc
    rw [if_neg hc] at h3
    omega
  · intro hc
    rw [if_pos hc] at h3
    omega

example : ((run Demo.crypto initial dropHistory).1.drops.get 0).map (·.closedAt) = some (some 13) ∧
    claimedBy Demo.crypto 0 initial dropHistory = 60 ∧ refundedBy Demo.crypto 0 initial dropHistory = 20 ∧
    fundedBy Demo.crypto 0 initial dropHistory = 80 := by
  decide +kernel

/-! ### C35 -/

theorem latest_run (c : Crypto) (calls : List Call) : ∀ s,
    (run c s calls).1.latest = s.latest + registrations c s calls := by
  induction calls with
  | nil => intro s; simp [run, registrations]
  | cons call calls ih =>
    intro s
    have i := ih (step c s call).1
    simp only [run, registrations]
    rcases step_cases c s call with ⟨e, er, hx⟩ | ⟨s', ms, e, hx, h⟩
    · rw [e] at i ⊢
      simp only [hx, Nat.zero_add]
      exact i
    · rw [e] at i ⊢
      simp only [hx] at i ⊢
      rw [i]
      generalize hm : call.msg = msg at h
      cases h with
      | register p a new free max => simp only; omega
      | fund id m a extra ht ha hc ho hf hx max => simp
      | close id m a ht ha hc ho hle => simp
      | claim p m a hv ht ha ho hk hp max hle => simp

/-- **C35 (numbering).** After any history the airdrops are exactly those numbered below the number of accepted
registrations, and a further accepted registration creates the airdrop with the next number, which did not exist. -/
theorem C35_ids_are_consecutive (c : Crypto) (calls : List Call) :
    (∀ n, (run c initial calls).1.drops.get n ≠ none ↔ n < registrations c initial calls) ∧
    (∀ env info p s' ms, execute c (run c initial calls).1 env info (.register p) = .ok (s', ms) →
      (run c initial calls).1.drops.get (registrations c initial calls) = none ∧
      s'.drops.get (registrations c initial calls) ≠ none ∧ ms = [] ∧
      ∀ n, n ≠ registrations c initial calls → s'.drops.get n = (run c initial calls).1.drops.get n) := by
  have hl := latest_run c calls initial
  have z : initial.latest = 0 := rfl
  rw [z, Nat.zero_add] at hl
  have hi := inv_initial.run (c := c) calls
  refine ⟨fun n => ?_, ?_⟩
  · rw [Ne, hi.ids, ← hl, Nat.not_le]
  · intro env info p s' ms h
    rw [← hl]
    cases execute_change.1 h with
    | register p a new free max =>
      refine ⟨(hi.ids _).2 (le_refl _), by simp, rfl, ?_⟩
      intro n hn
      exact KV.get_set_ne _ _ (Ne.symm hn)

/-- After the first registration the next airdrop gets the number 1. -/
example : registrations Demo.crypto initial dropHistory = 1 ∧
    (execute Demo.crypto (run Demo.crypto initial dropHistory).1 Demo.regBearer.env Demo.regBearer.info
      Demo.regBearer.msg).map (fun o => ((o.1.drops.get 1).isSome, (o.1.drops.get 2).isSome)) = .ok (true, false) := by
  decide +kernel

/-- **C35 (identity).** An airdrop is never removed; its type and signer, creator, denom, Merkle root, label and
creation height never change and its totals never decrease. -/
theorem C35_identity_never_changes {c : Crypto} {s : State} (hr : Reachable c s) (calls : List Call) {n : Nat}
    {a : Drop} (h : s.drops.get n = some a) :
    ∃ a', (run c s calls).1.drops.get n = some a' ∧ a'.kind = a.kind ∧ a'.creator = a.creator ∧ a'.denom = a.denom ∧
      a'.merkleRoot = a.merkleRoot ∧ a'.label = a.label ∧ a'.createdAt = a.createdAt ∧
      a.totalAmount ≤ a'.totalAmount ∧ a.totalClaimed ≤ a'.totalClaimed := by
  obtain ⟨a', h0, h1, h2, h3, h4, h5, h6, h7, h8, _⟩ := (grows_run (c := c) hr.inv calls).drops n a h
  exact ⟨a', h0, h1, h2, h3, h4, h5, h6, h7, h8⟩

/-- Carol's airdrop before and after its history. -/
example : Reachable Demo.crypto (run Demo.crypto initial [Demo.reg]).1 ∧
    ((run Demo.crypto initial [Demo.reg]).1.drops.get 0).map (fun a => (a.creator, a.totalAmount, a.totalClaimed)) =
      some ("carol", 50, 0) ∧
    ((run Demo.crypto (run Demo.crypto initial [Demo.reg]).1 [Demo.fund, Demo.claimAlice]).1.drops.get 0).map
      (fun a => (a.creator, a.totalAmount, a.totalClaimed)) = some ("carol", 80, 60) :=
  ⟨⟨_, rfl⟩, by decide +kernel, by decide +kernel⟩

/-- **C35 (what is registered).** A registered airdrop records the message: sender, denom, root, height, the single
attached coin as its total, nothing claimed, open. -/
theorem C35_registration_records_message {c : Crypto} {s s' : State} {env : Env} {info : Info} {root : String}
    {denom : Denom} {label : Option String} {ms : List Msg}
    (h : execute c s env info (.register (.openDrop root denom label)) = .ok (s', ms)) :
    ∃ x, info.funds = [⟨denom, x⟩] ∧ x ≠ 0 ∧
      s'.drops.get s.latest = some
        { kind := .openAirdrop, creator := info.sender, denom := denom, totalAmount := x, totalClaimed := 0
          merkleRoot := root, label := label.map (fun l => info.sender ++ "/" ++ l), createdAt := env.height
          closedAt := none } := by
  cases execute_change.1 h with
  | register p a new free max =>
    obtain ⟨h1, h2, h3, h4, h5, h6, ⟨h8, h9, h10, h11⟩⟩ := new
    obtain ⟨kind, creator, dn, ta, tc, mr, lb, ca, cl⟩ := a
    simp only at *
    subst h1 h2 h3 h4 h8 h9 h10 h11
    exact ⟨ta, h5.1, h5.2, KV.get_set_self _ _ _⟩

/-- What Carol's registration records. -/
example : (execute Demo.crypto initial Demo.reg.env Demo.reg.info Demo.reg.msg).map (fun o => o.1.drops.get 0) = .ok (some
      { kind := .openAirdrop, creator := "carol", denom := "uosmo", totalAmount := 50, totalClaimed := 0
        merkleRoot := Demo.root, label := some "carol/gift", createdAt := 10, closedAt := none }) := by
  decide +kernel

/-- **C35 (what is registered, bearer).** A registered bearer airdrop also records the signer: the address of the
given public key, which signed its own address. -/
theorem C35_bearer_registration_records_message {c : Crypto} {s s' : State} {env : Env} {info : Info} {root : String}
    {denom : Denom} {label : Option String} {pub sig : String} {ms : List Msg}
    (h : execute c s env info (.register (.bearer root denom pub sig label)) = .ok (s', ms)) :
    ∃ x key sigBytes, info.funds = [⟨denom, x⟩] ∧ x ≠ 0 ∧ hexDecode pub = .ok key ∧ hexDecode sig = .ok sigBytes ∧
      c.verify (c.sha (utf8 (c.addrOf key))) sigBytes key = .ok true ∧
      s'.drops.get s.latest = some
        { kind := .bearer (c.addrOf key) key, creator := info.sender, denom := denom, totalAmount := x
          totalClaimed := 0, merkleRoot := root, label := label.map (fun l => info.sender ++ "/" ++ l)
          createdAt := env.height, closedAt := none } := by
  cases execute_change.1 h with
  | register p a new free max =>
    obtain ⟨h1, h2, h3, h4, h5, h6, ⟨⟨key, sb, g1, g2, g3, g4, g5⟩, h9, h10, h11⟩⟩ := new
    obtain ⟨kind, creator, dn, ta, tc, mr, lb, ca, cl⟩ := a
    simp only at *
    subst h1 h2 h3 h4 g3 h9 h10 h11
    exact ⟨ta, key, sb, h5.1, h5.2, g1, g2, g5, KV.get_set_self _ _ _⟩

/-- What Carol's registration of a bearer airdrop records. -/
example : (execute Demo.crypto initial Demo.regBearer.env Demo.regBearer.info Demo.regBearer.msg).map
    (fun o => o.1.drops.get 0) = .ok (some
      { kind := .bearer "osmo1signer" [1, 2], creator := "carol", denom := "uosmo", totalAmount := 70, totalClaimed := 0
        merkleRoot := Demo.toHex (Demo.leaf "salt" 7).bytes, label := none, createdAt := 14, closedAt := none }) := by
  decide +kernel

example : registrations Demo.crypto initial (dropHistory ++ [Demo.regBearer, Demo.claimSalt]) = 2 ∧
    (execute Demo.crypto initial Demo.reg.env Demo.reg.info Demo.reg.msg).map (fun o => o.1.drops.get 0) = .ok (some
      { kind := .openAirdrop, creator := "carol", denom := "uosmo", totalAmount := 50, totalClaimed := 0
        merkleRoot := Demo.root, label := some "carol/gift", createdAt := 10, closedAt := none }) := by
  decide +kernel

/-! ### C36 -/

/-- **C36 (permanent).** A label resolves to the same airdrop forever. -/
theorem C36_label_is_permanent {c : Crypto} {s : State} (hr : Reachable c s) {l : String} {n : Nat}
    (h : s.labels.get l = some n) (calls : List Call) : (run c s calls).1.labels.get l = some n :=
  (grows_run (c := c) hr.inv calls).labels l n h

/-- The label of Carol's airdrop, before and after its history. -/
example : Reachable Demo.crypto (run Demo.crypto initial [Demo.reg]).1 ∧
    (run Demo.crypto initial [Demo.reg]).1.labels.get "carol/gift" = some 0 ∧
    (run Demo.crypto (run Demo.crypto initial [Demo.reg]).1 [Demo.reg, Demo.close]).1.labels.get "carol/gift" = some 0 :=
  ⟨⟨_, rfl⟩, by decide +kernel, by decide +kernel⟩

/-- **C36 (unique).** Two airdrops never share a label. -/
theorem C36_label_is_unique {c : Crypto} {s : State} (hr : Reachable c s) {m n : Nat} {a b : Drop} {l : String}
    (ha : s.drops.get m = some a) (hb : s.drops.get n = some b) (la : a.label = some l) (lb : b.label = some l) :
    m = n := by
  have h1 := hr.inv.labelOf m a l ha la
  have h2 := hr.inv.labelOf n b l hb lb
  rw [h1] at h2
  exact Option.some.inj h2

/-- Carol and Dave use the same name; the labels differ. -/
example : (((run Demo.crypto initial [Demo.reg, { Demo.reg with info := ⟨"dave", [⟨"uosmo", 50⟩]⟩ }]).1.drops.get 0).bind
      (·.label)) = some "carol/gift" ∧
    (((run Demo.crypto initial [Demo.reg, { Demo.reg with info := ⟨"dave", [⟨"uosmo", 50⟩]⟩ }]).1.drops.get 1).bind
      (·.label)) = some "dave/gift" := by
  decide +kernel

/-- **C36 (resolution).** A label resolves to an airdrop exactly when that airdrop carries it. -/
theorem C36_label_resolves_to_its_airdrop {c : Crypto} {s : State} (hr : Reachable c s) (l : String) (n : Nat) :
    s.labels.get l = some n ↔ ∃ a, s.drops.get n = some a ∧ a.label = some l :=
  ⟨hr.inv.labelTo l n, fun ⟨a, h1, h2⟩ => hr.inv.labelOf n a l h1 h2⟩

/-- The label of the first airdrop; the second has none. -/
example : (run Demo.crypto initial [Demo.reg, Demo.regBearer]).1.labels.get "carol/gift" = some 0 ∧
    ((run Demo.crypto initial [Demo.reg, Demo.regBearer]).1.drops.get 0).bind (·.label) = some "carol/gift" ∧
    ((run Demo.crypto initial [Demo.reg, Demo.regBearer]).1.drops.get 1).bind (·.label) = none := by
  decide +kernel

/-- **C36 (owned).** A label starts with the creator of its airdrop followed by a slash. -/
theorem C36_label_is_owned {c : Crypto} {s : State} (hr : Reachable c s) {n : Nat} {a : Drop} {l : String}
    (ha : s.drops.get n = some a) (hl : a.label = some l) : ∃ name, l = a.creator ++ "/" ++ name :=
  hr.inv.owned n a l ha hl

/-- The label begins with the creator of the airdrop. -/
example : Reachable Demo.crypto (run Demo.crypto initial [Demo.reg]).1 ∧
    ((run Demo.crypto initial [Demo.reg]).1.drops.get 0).map (fun a => (a.creator, a.label)) =
      some ("carol", some ("carol" ++ "/" ++ "gift")) :=
  ⟨⟨_, rfl⟩, by decide +kernel⟩

/-- **C36 (taken).** A registration with a label already taken by the sender is rejected. -/
theorem C36_taken_label_is_rejected {c : Crypto} {s : State} {env : Env} {info : Info} {root : String} {denom : Denom}
    {name : String} (h : s.labels.get (info.sender ++ "/" ++ name) ≠ none) :
    (∀ out, execute c s env info (.register (.openDrop root denom (some name))) ≠ .ok out) ∧
    ∀ pub sig out, execute c s env info (.register (.bearer root denom pub sig (some name))) ≠ .ok out := by
  constructor
  · rintro ⟨s', ms⟩ hx
    cases execute_change.1 hx with
    | register p a new free max =>
      have := new.payload
      simp only [Option.map_some] at this
      exact h (free _ this.2.2.2)
  · rintro pub sig ⟨s', ms⟩ hx
    cases execute_change.1 hx with
    | register p a new free max =>
      have := new.payload
      simp only [Option.map_some] at this
      exact h (free _ this.2.2.2)

/-- Carol cannot use the name twice. -/
example : (run Demo.crypto initial [Demo.reg]).1.labels.get ("carol" ++ "/" ++ "gift") ≠ none ∧
    (execute Demo.crypto (run Demo.crypto initial [Demo.reg]).1 Demo.reg.env Demo.reg.info Demo.reg.msg).toOption = none := by
  decide +kernel

/-- **C36 (label or id).** Addressing an airdrop by its label or by its number has the same effect. -/
theorem C36_label_or_id_same_effect {c : Crypto} {s : State} {l : String} {n : Nat} (h : s.labels.get l = some n)
    (env : Env) (info : Info) :
    execute c s env info (.fund (.label l)) = execute c s env info (.fund (.id n)) ∧
    execute c s env info (.close (.label l)) = execute c s env info (.close (.id n)) ∧
    (∀ p, execute c s env info (.claim (readdress (.label l) p)) = execute c s env info (.claim (readdress (.id n) p))) ∧
    getAirdrop s (.label l) = getAirdrop s (.id n) ∧
    (∀ k, getClaim s (.label l) k = getClaim s (.id n) k) ∧
    ∀ p, verifyClaim c s (readdress (.label l) p) = verifyClaim c s (readdress (.id n) p) := by
  have e : loadAirdrop s (.label l) = loadAirdrop s (.id n) := by
    simp only [loadAirdrop, KV.load, h]
  refine ⟨?_, ?_, ?_, e, ?_, ?_⟩
  · simp only [execute, Airdrop.fund, e]
  · simp only [execute, Airdrop.close, e]
  · intro p; cases p <;> simp only [execute, readdress, Airdrop.claim, claimOpen, claimBearer, e]
  · intro k; simp only [getClaim, e]
  · intro p; cases p <;> simp only [verifyClaim, readdress, e]

/-- Funding by label and by number. -/
example : (run Demo.crypto initial [Demo.reg]).1.labels.get "carol/gift" = some 0 ∧
    (execute Demo.crypto (run Demo.crypto initial [Demo.reg]).1 Demo.fund.env Demo.fund.info (.fund (.label "carol/gift"))).map
      (fun o => (o.1.drops.get 0).map (·.totalAmount)) = .ok (some 80) ∧
    (execute Demo.crypto (run Demo.crypto initial [Demo.reg]).1 Demo.fund.env Demo.fund.info (.fund (.id 0))).map
      (fun o => (o.1.drops.get 0).map (·.totalAmount)) = .ok (some 80) := by
  decide +kernel

theorem join_split : ∀ cs, joinSlash (splitSlash cs) = cs ∧ splitSlash cs ≠ [] := by
  intro cs
  induction cs with
  | nil => simp [splitSlash, joinSlash]
  | cons x cs ih =>
    obtain ⟨i1, i2⟩ := ih
    simp only [splitSlash]
    split
    · rename_i h
      refine ⟨?_, by simp⟩
      cases hs : splitSlash cs with
      | nil => exact absurd hs i2
      | cons p ps => rw [hs] at i1; simp [joinSlash, i1, h]
    · cases hs : splitSlash cs with
      | nil => exact absurd hs i2
      | cons p ps =>
        rw [hs] at i1
        refine ⟨?_, by simp⟩
        cases ps with
        | nil => simpa [joinSlash] using i1
        | cons q ps => simpa [joinSlash] using i1

theorem split_owner (cs ds : List Char) (h : '/' ∉ cs) :
    splitSlash (cs ++ '/' :: ds) = cs :: splitSlash ds := by
  induction cs with
  | nil => simp [splitSlash]
  | cons x cs ih =>
    simp only [List.mem_cons, not_or] at h
    simp only [List.cons_append, splitSlash]
    rw [if_neg (Ne.symm h.1), ih h.2]

/-- **C36 (GetLabel).** For an airdrop registered with a name by a creator whose address has no slash, `GetLabel`
answers the creator, the name and the number of the airdrop. -/
theorem C36_get_label_splits_back {c : Crypto} {s : State} (hr : Reachable c s) {n : Nat} {a : Drop} {name : String}
    (ha : s.drops.get n = some a) (hl : a.label = some (a.creator ++ "/" ++ name)) (hs : '/' ∉ a.creator.toList) :
    getLabel s (a.creator ++ "/" ++ name) = .ok { creator := a.creator, label := name, airdropId := n } := by
  have h1 := hr.inv.labelOf n a _ ha hl
  have h2 : (a.creator ++ "/" ++ name).toList = a.creator.toList ++ '/' :: name.toList := by
    simp [String.toList_append]
  simp only [getLabel, KV.load, h1, labelResp, h2, split_owner _ _ hs]
  simp [(join_split _).1]

example : getLabel (run Demo.crypto initial dropHistory).1 "carol/gift" =
    .ok { creator := "carol", label := "gift", airdropId := 0 } := by
  decide +kernel

/-- A name with slashes is still split back. -/
example : labelResp "carol/a/b" 3 = { creator := "carol", label := "a/b", airdropId := 3 } := by decide +kernel

/-- Without the condition on the creator the answer is wrong. -/
example : labelResp ("ca/rol" ++ "/" ++ "gift") 3 = { creator := "ca", label := "rol/gift", airdropId := 3 } := by
  decide +kernel

/-! ### C39 -/

/-- **C39 (open).** An accepted open claim pays exactly the claimed amount, in the denom of the airdrop, to the given
account (or the sender), for whom the leaf was proven; it uses up the claimer's key, adds the amount to the total
claimed, and changes nothing else. -/
theorem C39_open_claim {c : Crypto} {s s' : State} {env : Env} {info : Info} {id : DropId} {amount : Nat}
    {account : Option String} {proof : List String} {ms : List Msg}
    (h : execute c s env info (.claim (.openDrop id amount account proof)) = .ok (s', ms)) :
    ∃ n a, target s id = some n ∧ s.drops.get n = some a ∧ a.kind = .openAirdrop ∧ a.closedAt = none ∧
      verifyMerkleProof c a.merkleRoot proof (account.getD info.sender) amount = .ok () ∧
      s.claims.get (n, account.getD info.sender) = none ∧ a.totalClaimed + amount ≤ a.totalAmount ∧
      ms = [.send (account.getD info.sender) [⟨a.denom, amount⟩]] ∧
      s'.drops.get n = some { a with totalClaimed := a.totalClaimed + amount } ∧
      s'.claims.get (n, account.getD info.sender) = some amount ∧
      (∀ m, m ≠ n → s'.drops.get m = s.drops.get m) ∧
      (∀ k, k ≠ (n, account.getD info.sender) → s'.claims.get k = s.claims.get k) ∧
      s'.labels = s.labels ∧ s'.latest = s.latest := by
  cases execute_change.1 h with
  | claim p n a hv ht ha ho hk hp max hle =>
    obtain ⟨h1, h2⟩ := hp
    exact ⟨n, a, ht, ha, h1, ho, h2, hk, hle, rfl, KV.get_set_self _ _ _, KV.get_set_self _ _ _,
      fun m hm => KV.get_set_ne _ _ (Ne.symm hm), fun k hk => KV.get_set_ne _ _ (Ne.symm hk), rfl, rfl⟩

/-- Dave claims Alice's 60: they are sent to Alice and recorded for Alice. -/
example : (execute Demo.crypto (run Demo.crypto initial [Demo.reg, Demo.fund]).1 Demo.claimAlice.env Demo.claimAlice.info
      Demo.claimAlice.msg).map (fun o => (o.2, o.1.claims.get (0, "alice"), (o.1.drops.get 0).map (·.totalClaimed))) =
    .ok ([.send "alice" [⟨"uosmo", 60⟩]], some 60, some 60) := by
  decide +kernel

/-- **C39 (bearer).** The same for a bearer claim: the leaf of the claim hash was proven, and the signature over
claim hash, claimer and amount is valid for the public key registered with the airdrop. -/
theorem C39_bearer_claim {c : Crypto} {s s' : State} {env : Env} {info : Info} {id : DropId} {amount : Nat}
    {account : Option String} {hash sign : String} {proof : List String} {ms : List Msg}
    (h : execute c s env info (.claim (.bearer id amount account hash sign proof)) = .ok (s', ms)) :
    ∃ n a signer pub sig, target s id = some n ∧ s.drops.get n = some a ∧ a.kind = .bearer signer pub ∧
      a.closedAt = none ∧
      verifyMerkleProof c a.merkleRoot proof hash amount = .ok () ∧ hexDecode sign = .ok sig ∧
      c.verify (c.sha (utf8 (hash ++ "/" ++ account.getD info.sender ++ "/" ++ toString amount))) sig pub = .ok true ∧
      s.claims.get (n, hash) = none ∧ a.totalClaimed + amount ≤ a.totalAmount ∧
      ms = [.send (account.getD info.sender) [⟨a.denom, amount⟩]] ∧
      s'.drops.get n = some { a with totalClaimed := a.totalClaimed + amount } ∧
      s'.claims.get (n, hash) = some amount ∧
      (∀ m, m ≠ n → s'.drops.get m = s.drops.get m) ∧
      (∀ k, k ≠ (n, hash) → s'.claims.get k = s.claims.get k) ∧
      s'.labels = s.labels ∧ s'.latest = s.latest := by
  cases execute_change.1 h with
  | claim p n a hv ht ha ho hk hp max hle =>
    obtain ⟨sg, pub, sig, h1, h2, h3, h4⟩ := hp
    exact ⟨n, a, sg, pub, sig, ht, ha, h1, ho, h2, h3, h4, hk, hle, rfl, KV.get_set_self _ _ _, KV.get_set_self _ _ _,
      fun m hm => KV.get_set_ne _ _ (Ne.symm hm), fun k hk => KV.get_set_ne _ _ (Ne.symm hk), rfl, rfl⟩

/-- Dave's message pays alice 60, bob's bearer claim pays bob 7. -/
example : (step Demo.crypto (run Demo.crypto initial [Demo.reg, Demo.fund]).1 Demo.claimAlice).2 =
      [.send "alice" [⟨"uosmo", 60⟩]] ∧
    (step Demo.crypto (run Demo.crypto initial [Demo.reg, Demo.regBearer]).1 Demo.claimSalt).2 =
      [.send "bob" [⟨"uosmo", 7⟩]] := by
  decide +kernel

/-! ### C40 -/

/-- **C40 (strangers).** A `Fund` or `Close` from anyone but the creator of the airdrop is rejected. -/
theorem C40_only_creator {c : Crypto} {s : State} {env : Env} {info : Info} {id : DropId} {n : Nat} {a : Drop}
    (ht : target s id = some n) (ha : s.drops.get n = some a) (hs : info.sender ≠ a.creator) :
    (∃ e, execute c s env info (.fund id) = .error e) ∧ (∃ e, execute c s env info (.close id) = .error e) ∧
    step c s ⟨env, info, .fund id⟩ = (s, []) ∧ step c s ⟨env, info, .close id⟩ = (s, []) := by
  have h1 : ∃ e, execute c s env info (.fund id) = .error e := by
    cases hx : execute c s env info (.fund id) with
    | error e => exact ⟨e, rfl⟩
    | ok o =>
      obtain ⟨s', ms⟩ := o
      cases execute_change.1 hx with
      | fund id m b extra ht' ha' hc ho hf hx max =>
        rw [ht] at ht'; cases ht'
        rw [ha] at ha'; cases ha'
        exact absurd hc.symm hs
  have h2 : ∃ e, execute c s env info (.close id) = .error e := by
    cases hx : execute c s env info (.close id) with
    | error e => exact ⟨e, rfl⟩
    | ok o =>
      obtain ⟨s', ms⟩ := o
      cases execute_change.1 hx with
      | close id m b ht' ha' hc ho hle =>
        rw [ht] at ht'; cases ht'
        rw [ha] at ha'; cases ha'
        exact absurd hc.symm hs
  refine ⟨h1, h2, ?_, ?_⟩
  · obtain ⟨e, h⟩ := h1; simp only [step, h]
  · obtain ⟨e, h⟩ := h2; simp only [step, h]

/-- Bob can neither fund nor close Carol's airdrop. -/
example : target (run Demo.crypto initial [Demo.reg]).1 (.id 0) = some 0 ∧
    ((run Demo.crypto initial [Demo.reg]).1.drops.get 0).map (·.creator) = some "carol" ∧
    execute Demo.crypto (run Demo.crypto initial [Demo.reg]).1 (Demo.env 11) ⟨"bob", [⟨"uosmo", 30⟩]⟩ (.fund (.id 0)) =
      .error .unauthorized ∧
    execute Demo.crypto (run Demo.crypto initial [Demo.reg]).1 (Demo.env 11) ⟨"bob", []⟩ (.close (.id 0)) =
      .error .unauthorized := by
  decide +kernel

/-- **C40 (funding).** An accepted `Fund` carries exactly one coin, of the denom of the airdrop, and adds exactly its
amount to the funded total; nothing else changes and nothing is sent. -/
theorem C40_fund_adds_attached_coin {c : Crypto} {s s' : State} {env : Env} {info : Info} {id : DropId}
    {ms : List Msg} (h : execute c s env info (.fund id) = .ok (s', ms)) :
    ∃ n a x, target s id = some n ∧ s.drops.get n = some a ∧ a.creator = info.sender ∧ a.closedAt = none ∧
      info.funds = [⟨a.denom, x⟩] ∧ x ≠ 0 ∧ ms = [] ∧
      s' = { s with drops := s.drops.set n { a with totalAmount := a.totalAmount + x } } := by
  cases execute_change.1 h with
  | fund id n a extra ht ha hc ho hf hx max => exact ⟨n, a, extra, ht, ha, hc, ho, hf, hx, rfl, rfl⟩

/-- Carol's funding is accepted, the same from bob is rejected. -/
example : (execute Demo.crypto (run Demo.crypto initial [Demo.reg]).1 Demo.fund.env Demo.fund.info Demo.fund.msg).map
      (fun o => (o.1.drops.get 0).map (·.totalAmount)) = .ok (some 80) ∧
    (execute Demo.crypto (run Demo.crypto initial [Demo.reg]).1 Demo.fund.env ⟨"bob", [⟨"uosmo", 30⟩]⟩
      Demo.fund.msg) = .error .unauthorized := by
  decide +kernel

end Ibcx.Props
