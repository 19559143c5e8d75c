import Verif.Props.AirdropDemo
import Verif.Airdrop.Inv
/-!
# Airdrops do not affect each other
-/

namespace Ibcx.Props
open Ibcx Ibcx.Airdrop Ibcx.Spec

/-- The airdrop a message addresses; a registration addresses none. -/
def addressed : ExecMsg → Option DropId
  | .register _ => none
  | .fund id => some id
  | .claim p => some (claimDrop p)
  | .close id => some id

/-- The message concerns airdrop `i` in this state. -/
def Concerns (i : Nat) (s : State) (call : Call) : Prop := ∃ d, addressed call.msg = some d ∧ target s d = some i

instance (i : Nat) (s : State) (call : Call) : Decidable (Concerns i s call) :=
  match h : addressed call.msg with
  | none => .isFalse (by rintro ⟨d, h1, _⟩; rw [h] at h1; cases h1)
  | some d => if h' : target s d = some i then .isTrue ⟨d, h, h'⟩
    else .isFalse (by rintro ⟨d', h1, h2⟩; rw [h] at h1; cases h1; exact h' h2)

/-- `kept` is the history `calls`, begun in state `s`, without some of the messages that address another airdrop than `i`.
(What a message addresses is judged when it is delivered.) -/
inductive Without (c : Crypto) (i : Nat) : State → List Call → List Call → Prop
  | nil (s : State) : Without c i s [] []
  | keep {s : State} {call : Call} {calls kept : List Call} (h : Without c i (step c s call).1 calls kept) :
      Without c i s (call :: calls) (call :: kept)
  | leave {s : State} {call : Call} {calls kept : List Call} (d : DropId) (hd : addressed call.msg = some d)
      (ho : target s d ≠ some i) (h : Without c i (step c s call).1 calls kept) : Without c i s (call :: calls) kept

/-- What is answered to the messages that concern airdrop `i`: the refusal, or the coins sent. -/
def answered (c : Crypto) (i : Nat) (s : State) : List Call → List (Except Err (List Msg))
  | [] => []
  | call :: calls =>
    (if Concerns i s call then [(execute c s call.env call.info call.msg).map (·.2)] else []) ++
      answered c i (step c s call).1 calls

/-- Two states look the same to airdrop `i`. -/
structure AlikeFor (i : Nat) (s t : State) : Prop where
  latest : s.latest = t.latest
  labels : s.labels = t.labels
  record : s.drops.get i = t.drops.get i
  claims : ∀ k, s.claims.get (i, k) = t.claims.get (i, k)
  listed : s.claims.filter (fun e => e.1.1 = i) = t.claims.filter (fun e => e.1.1 = i)

private theorem filter_set_other {V : Type} {i n : Nat} (hn : n ≠ i) (k : String) (v : V) : ∀ m : KV (Nat × String) V,
    (m.set (n, k) v).filter (fun e => e.1.1 = i) = m.filter (fun e => e.1.1 = i)
  | [] => by simp [KV.set, hn]
  | (k', v') :: m => by
    unfold KV.set
    by_cases h : k' = (n, k)
    · rw [if_pos h, h, List.filter_cons_of_neg (by simpa using hn), List.filter_cons_of_neg (by simpa using hn)]
    · rw [if_neg h, List.filter_cons, List.filter_cons, filter_set_other hn k v m]

private theorem filter_set_same {V : Type} (i : Nat) (k : String) (v : V) : ∀ m : KV (Nat × String) V,
    (m.set (i, k) v).filter (fun e => e.1.1 = i) = KV.set (m.filter (fun e => e.1.1 = i)) (i, k) v
  | [] => by simp [KV.set]
  | (k', v') :: m => by
    conv_lhs => unfold KV.set
    by_cases h : k' = (i, k)
    · rw [if_pos h, h, List.filter_cons_of_pos (by simp), List.filter_cons_of_pos (by simp)]
      conv_rhs => unfold KV.set
      rw [if_pos rfl]
    · rw [if_neg h, List.filter_cons, List.filter_cons, filter_set_same i k v m]
      split
      · conv_rhs => unfold KV.set
        rw [if_neg h]
      · rfl

namespace AlikeFor

theorem refl (i : Nat) (s : State) : AlikeFor i s s := ⟨rfl, rfl, rfl, fun _ => rfl, rfl⟩

theorem symm {i : Nat} {s t : State} (h : AlikeFor i s t) : AlikeFor i t s :=
  ⟨h.latest.symm, h.labels.symm, h.record.symm, fun k => (h.claims k).symm,
    h.listed.symm⟩

theorem trans {i : Nat} {s t u : State} (h : AlikeFor i s t) (h' : AlikeFor i t u) : AlikeFor i s u :=
  ⟨h.latest.trans h'.latest, h.labels.trans h'.labels, h.record.trans h'.record, fun k => (h.claims k).trans (h'.claims k),
    h.listed.trans h'.listed⟩

theorem target {i : Nat} {s t : State} (h : AlikeFor i s t) (d : DropId) : Spec.target s d = Spec.target t d := by
  cases d with
  | id n => rfl
  | label l => unfold Spec.target; rw [h.labels]

theorem concerns {i : Nat} {s t : State} (h : AlikeFor i s t) (call : Call) : Concerns i s call ↔ Concerns i t call := by
  unfold Concerns
  simp only [h.target]

end AlikeFor

/-- Two results are the same refusal, or send the same and leave states alike. -/
private def Both (i : Nat) (x y : Res Out) : Prop :=
  (∃ e, x = .error e ∧ y = .error e) ∨ ∃ s t ms, x = .ok (s, ms) ∧ y = .ok (t, ms) ∧ AlikeFor i s t

private theorem Both.bind {α : Type} {i : Nat} (a : Res α) {f g : α → Res Out} (h : ∀ v, a = .ok v → Both i (f v) (g v)) :
    Both i (a >>= f) (a >>= g) := by
  cases a with
  | error e => exact .inl ⟨e, rfl, rfl⟩
  | ok v => exact h v rfl

private theorem Both.ok {i : Nat} {s t : State} {ms : List Msg} (h : AlikeFor i s t) : Both i (.ok (s, ms)) (.ok (t, ms)) :=
  .inr ⟨s, t, ms, rfl, rfl, h⟩

/-- A new record of airdrop `i`. -/
private theorem AlikeFor.put {i : Nat} {s t : State} (h : AlikeFor i s t) (a : Drop) :
    AlikeFor i { s with drops := s.drops.set i a } { t with drops := t.drops.set i a } :=
  ⟨h.latest, h.labels, by simp only [KV.get_set, if_true], h.claims, h.listed⟩

/-- A new claim of airdrop `i`. -/
private theorem AlikeFor.paid {i : Nat} {s t : State} (h : AlikeFor i s t) (a : Drop) (k : String) (x : Nat) :
    AlikeFor i { s with drops := s.drops.set i a, claims := s.claims.set (i, k) x }
      { t with drops := t.drops.set i a, claims := t.claims.set (i, k) x } :=
  ⟨h.latest, h.labels, by simp only [KV.get_set, if_true], fun k' => by simp only [KV.get_set, h.claims],
    by simp only [filter_set_same, h.listed]⟩

/-- A new airdrop. -/
private theorem AlikeFor.new {i : Nat} {s t : State} (h : AlikeFor i s t) (a : Drop) (ls : KV String Nat) (n : Nat) :
    AlikeFor i { s with labels := ls, drops := s.drops.set s.latest a, latest := n }
      { t with labels := ls, drops := t.drops.set t.latest a, latest := n } :=
  ⟨rfl, rfl, by simp only [KV.get_set, h.latest, h.record], h.claims, h.listed⟩

private theorem load_same {i : Nat} {s t : State} (h : AlikeFor i s t) {d : DropId} (hd : target s d = some i) :
    loadAirdrop s d = loadAirdrop t d := by
  cases d with
  | id n =>
    cases hd
    unfold loadAirdrop KV.load
    simp only [h.record, bind, Except.bind]
  | label l =>
    unfold target at hd
    unfold loadAirdrop KV.load
    have ht : t.labels.get l = some i := by rw [← h.labels]; exact hd
    simp only [hd, ht, h.record, bind, Except.bind]

private theorem load_id {s : State} {d : DropId} {n : Nat} {a : Drop} {i : Nat} (h : loadAirdrop s d = .ok (n, a))
    (hd : target s d = some i) : n = i := by
  obtain ⟨h1, _⟩ := loadAirdrop_eq_ok.1 h
  rw [hd] at h1
  cases h1
  rfl

private theorem both_register {c : Crypto} {i : Nat} {s t : State} (h : AlikeFor i s t) (env : Env) (info : Info)
    (p : RegisterPayload) : Both i (register c s env info p) (register c t env info p) := by
  cases p with
  | openDrop root denom label =>
    unfold register registerOpen
    refine Both.bind _ fun _ _ => Both.bind _ fun _ _ => ?_
    rw [← h.labels, ← h.latest]
    refine Both.bind _ fun _ _ => Both.bind _ fun _ _ => Both.ok ?_
    have := AlikeFor.new h
    rw [← h.latest] at this
    exact this _ _ _
  | bearer root denom pub sig label =>
    unfold register registerBearer
    refine Both.bind _ fun _ _ => Both.bind _ fun _ _ => Both.bind _ fun _ _ => Both.bind _ fun _ _ => Both.bind _ fun _ _ =>
      Both.bind _ fun _ _ => Both.bind _ fun _ _ => ?_
    rw [← h.labels, ← h.latest]
    refine Both.bind _ fun _ _ => Both.bind _ fun _ _ => Both.ok ?_
    have := AlikeFor.new h
    rw [← h.latest] at this
    exact this _ _ _

private theorem both_concerned {c : Crypto} {i : Nat} {s t : State} (h : AlikeFor i s t) {call : Call} (hc : Concerns i s call) :
    Both i (execute c s call.env call.info call.msg) (execute c t call.env call.info call.msg) := by
  obtain ⟨d, h1, h2⟩ := hc
  obtain ⟨env, info, msg⟩ := call
  simp only at h1 ⊢
  cases msg with
  | register p => cases h1
  | fund id =>
    cases h1
    show Both i (fund s info _) (fund t info _)
    unfold fund
    rw [← load_same h h2]
    refine Both.bind _ fun v hv => ?_
    obtain ⟨n, a⟩ := v
    cases load_id hv h2
    cases hk : a.kind with
    | openAirdrop =>
      simp only [hk]
      unfold fundOpen
      exact Both.bind _ fun _ _ => Both.bind _ fun _ _ => Both.bind _ fun _ _ => Both.bind _ fun _ _ => Both.ok (h.put _)
    | bearer _ _ =>
      simp only [hk]
      unfold fundBearer
      exact Both.bind _ fun _ _ => Both.bind _ fun _ _ => Both.bind _ fun _ _ => Both.bind _ fun _ _ => Both.ok (h.put _)
  | close id =>
    cases h1
    show Both i (close s env info _) (close t env info _)
    unfold close
    rw [← load_same h h2]
    refine Both.bind _ fun v hv => ?_
    obtain ⟨n, a⟩ := v
    cases load_id hv h2
    cases hk : a.kind with
    | openAirdrop =>
      simp only [hk]
      unfold closeOpen
      exact Both.bind _ fun _ _ => Both.bind _ fun _ _ => Both.bind _ fun _ _ => Both.ok (h.put _)
    | bearer _ _ =>
      simp only [hk]
      unfold closeBearer
      exact Both.bind _ fun _ _ => Both.bind _ fun _ _ => Both.bind _ fun _ _ => Both.ok (h.put _)
  | claim p =>
    cases h1
    cases p with
    | openDrop id amount account proof =>
      unfold execute claim
      refine Both.bind _ fun who _ => ?_
      unfold claimOpen
      change target s id = some i at h2
      rw [← load_same h h2]
      refine Both.bind _ fun v hv => ?_
      obtain ⟨n, a⟩ := v
      cases load_id hv h2
      refine Both.bind _ fun a' _ => Both.bind _ fun _ _ => ?_
      unfold assertNotClaimed
      simp only [← h.claims]
      exact Both.bind _ fun _ _ => Both.bind _ fun _ _ => Both.bind _ fun _ _ => Both.bind _ fun _ _ => Both.ok (h.paid _ _ _)
    | bearer id amount account hash sign proof =>
      unfold execute claim
      refine Both.bind _ fun who _ => ?_
      unfold claimBearer
      change target s id = some i at h2
      rw [← load_same h h2]
      refine Both.bind _ fun v hv => ?_
      obtain ⟨n, a⟩ := v
      cases load_id hv h2
      refine Both.bind _ fun a' _ => ?_
      obtain ⟨a', pub⟩ := a'
      refine Both.bind _ fun _ _ => ?_
      unfold assertNotClaimed
      simp only [← h.claims]
      exact Both.bind _ fun _ _ => Both.bind _ fun _ _ => Both.bind _ fun _ _ => Both.bind _ fun _ _ => Both.bind _ fun _ _ =>
        Both.bind _ fun _ _ => Both.bind _ fun _ _ => Both.ok (h.paid _ _ _)

/-- A message about another airdrop changes nothing that airdrop `i` sees. -/
private theorem other_alike {c : Crypto} {i : Nat} {s : State} {call : Call} {d : DropId} (hd : addressed call.msg = some d)
    (ho : target s d ≠ some i) : AlikeFor i (step c s call).1 s := by
  rcases step_cases c s call with ⟨e, _⟩ | ⟨s', ms, e, _, hc⟩
  · rw [e]; exact .refl i s
  · rw [e]
    generalize call.msg = msg at hd hc
    cases hc with
    | register p a new free max => cases hd
    | fund id n a extra ht ha _ _ _ _ _ =>
      cases hd
      have hn : n ≠ i := fun hn => ho (hn ▸ ht)
      exact ⟨rfl, rfl, by simp only [KV.get_set, if_neg hn], fun _ => rfl, rfl⟩
    | close id n a ht ha _ _ _ =>
      cases hd
      have hn : n ≠ i := fun hn => ho (hn ▸ ht)
      exact ⟨rfl, rfl, by simp only [KV.get_set, if_neg hn], fun _ => rfl, rfl⟩
    | claim p n a _ ht ha _ _ _ _ _ =>
      cases hd
      have hn : n ≠ i := fun hn => ho (hn ▸ ht)
      exact ⟨rfl, rfl, by simp only [KV.get_set, if_neg hn], fun k => by
        simp only [KV.get_set, Prod.mk.injEq, hn, false_and, if_false], filter_set_other hn _ _ _⟩

private theorem step_alike {c : Crypto} {i : Nat} {s t : State} (h : AlikeFor i s t) (call : Call) :
    AlikeFor i (step c s call).1 (step c t call).1 ∧
      (Concerns i s call → (execute c s call.env call.info call.msg).map (·.2) = (execute c t call.env call.info call.msg).map (·.2)) := by
  have key : Both i (execute c s call.env call.info call.msg) (execute c t call.env call.info call.msg) →
      AlikeFor i (step c s call).1 (step c t call).1 ∧
      (Concerns i s call → (execute c s call.env call.info call.msg).map (·.2) =
        (execute c t call.env call.info call.msg).map (·.2)) := by
    rintro (⟨e, h1, h2⟩ | ⟨s', t', ms, h1, h2, h3⟩)
    · unfold step; rw [h1, h2]; exact ⟨h, fun _ => rfl⟩
    · unfold step; rw [h1, h2]; exact ⟨h3, fun _ => rfl⟩
  by_cases hc : Concerns i s call
  · exact key (both_concerned h hc)
  · cases hd : addressed call.msg with
    | none =>
      refine key ?_
      cases hm : call.msg with
      | register p => exact both_register h call.env call.info p
      | fund id => rw [hm] at hd; cases hd
      | claim p => rw [hm] at hd; cases hd
      | close id => rw [hm] at hd; cases hd
    | some d =>
      have h1 : target s d ≠ some i := fun hh => hc ⟨d, hd, hh⟩
      have h2 : target t d ≠ some i := by rw [← h.target]; exact h1
      exact ⟨((other_alike hd h1).trans h).trans (other_alike hd h2).symm, fun hh => absurd hh hc⟩

private theorem run_alike {c : Crypto} {i : Nat} {s : State} {calls kept : List Call} (hw : Without c i s calls kept) :
    ∀ {t : State}, AlikeFor i s t → AlikeFor i (run c s calls).1 (run c t kept).1 ∧ answered c i s calls = answered c i t kept := by
  induction hw with
  | nil s => exact fun h => ⟨h, rfl⟩
  | @keep s call calls kept _ ih =>
    intro t h
    obtain ⟨h1, h2⟩ := step_alike (c := c) h call
    obtain ⟨h3, h4⟩ := ih h1
    refine ⟨h3, ?_⟩
    unfold answered
    rw [h4]
    by_cases hc : Concerns i s call
    · rw [if_pos hc, if_pos ((h.concerns call).1 hc), h2 hc]
    · rw [if_neg hc, if_neg (fun hh => hc ((h.concerns call).2 hh))]
  | @leave s call calls kept d hd ho _ ih =>
    intro t h
    obtain ⟨h3, h4⟩ := ih ((other_alike (c := c) hd ho).trans h)
    refine ⟨h3, ?_⟩
    rw [← h4]
    conv_lhs => unfold answered
    rw [if_neg (by rintro ⟨d', h1, h2⟩; rw [hd] at h1; cases h1; exact ho h2)]
    rfl

/-- **C117.** From any state, take any history and leave out any of the fundings, claims and closings of other airdrops.  Every
message about airdrop `i` gets the same answer, the same refusal or the same payment, and the record and the claims of `i` are
the same in the end, as are all numbers and labels. -/
theorem C117_airdrops_are_isolated {c : Crypto} {i : Nat} {s : State} {calls kept : List Call} (hw : Without c i s calls kept) :
    answered c i s calls = answered c i s kept ∧
    (run c s calls).1.drops.get i = (run c s kept).1.drops.get i ∧
    (∀ k, (run c s calls).1.claims.get (i, k) = (run c s kept).1.claims.get (i, k)) ∧
    (run c s calls).1.latest = (run c s kept).1.latest ∧ (run c s calls).1.labels = (run c s kept).1.labels :=
  have h := run_alike hw (AlikeFor.refl i s)
  ⟨h.2, h.1.record, h.1.claims, h.1.latest, h.1.labels⟩

/-- Carol's open airdrop is funded, claimed from and closed while bob redeems from the bearer airdrop, twice.  For the bearer
airdrop nothing of this matters: bob is paid 7 and then refused. -/
example :
    let calls := [Demo.reg, Demo.regBearer, Demo.fund, Demo.claimAlice, Demo.claimSalt, Demo.close, Demo.claimBob, Demo.claimSalt]
    let kept := [Demo.reg, Demo.regBearer, Demo.claimSalt, Demo.claimSalt]
    Without Demo.crypto 1 initial calls kept ∧
    answered Demo.crypto 1 initial calls = [.ok [.send "bob" [⟨"uosmo", 7⟩]], .error .alreadyClaimed] ∧
    answered Demo.crypto 0 initial calls = [.ok [], .ok [.send "alice" [⟨"uosmo", 60⟩]], .ok [.send "carol" [⟨"uosmo", 20⟩]],
      .error .closed] :=
  ⟨.keep (.keep (.leave _ rfl (by decide +kernel) (.leave _ rfl (by decide +kernel) (.keep (.leave _ rfl (by decide +kernel)
    (.leave _ rfl (by decide +kernel) (.keep (.nil _)))))))), by decide +kernel, by decide +kernel⟩

/-- **C117 (queries).** The same holds for what is told about airdrop `i`: the airdrop itself, its single claims, its pages of
claims and the verdicts on claims. -/
theorem C117_questions_are_isolated {c : Crypto} {i : Nat} {s : State} {calls kept : List Call} (hw : Without c i s calls kept)
    {d : DropId} (hd : target (run c s calls).1 d = some i) :
    getAirdrop (run c s calls).1 d = getAirdrop (run c s kept).1 d ∧
    (∀ k, getClaim (run c s calls).1 d k = getClaim (run c s kept).1 d k) ∧
    (∀ start limit order, listClaims (run c s calls).1 d start limit order = listClaims (run c s kept).1 d start limit order) ∧
    (∀ p, claimDrop p = d → verifyClaim c (run c s calls).1 p = verifyClaim c (run c s kept).1 p) := by
  have h := (run_alike hw (AlikeFor.refl i s)).1
  generalize (run c s calls).1 = x at h hd
  generalize (run c s kept).1 = y at h
  have hl := load_same h hd
  have hi : ∀ n a, loadAirdrop y d = .ok (n, a) → n = i := fun n a hh => load_id (by rw [hl]; exact hh) hd
  refine ⟨hl, fun k => ?_, fun start limit order => ?_, fun p hp => ?_⟩
  · unfold getClaim
    rw [hl]
    cases hy : loadAirdrop y d with
    | error e => rfl
    | ok v =>
      obtain ⟨n, a⟩ := v
      cases hi n a hy
      show x.claims.load _ = y.claims.load _
      unfold KV.load
      rw [h.claims]
  · unfold listClaims
    rw [hl]
    cases hy : loadAirdrop y d with
    | error e => rfl
    | ok v =>
      obtain ⟨n, a⟩ := v
      cases hi n a hy
      show Iface.page _ _ _ _ _ = Iface.page _ _ _ _ _
      rw [h.listed]
  · subst hp
    cases p with
    | openDrop id amount account proof =>
      change loadAirdrop x id = loadAirdrop y id at hl
      unfold verifyClaim
      simp only [hl]
    | bearer id amount account hash sign proof =>
      change loadAirdrop x id = loadAirdrop y id at hl
      unfold verifyClaim
      cases account with
      | none => rfl
      | some acc => simp only [hl]

/-- In both histories of the example above the page of claims of the bearer airdrop is the one claim of 7. -/
example :
    let calls := [Demo.reg, Demo.regBearer, Demo.fund, Demo.claimAlice, Demo.claimSalt, Demo.close]
    let kept := [Demo.reg, Demo.regBearer, Demo.claimSalt]
    Without Demo.crypto 1 initial calls kept ∧ target (run Demo.crypto initial calls).1 (.id 1) = some 1 ∧
    listClaims (run Demo.crypto initial calls).1 (.id 1) none none none = .ok [("salt", 7)] ∧
    listClaims (run Demo.crypto initial kept).1 (.id 1) none none none = .ok [("salt", 7)] ∧
    listClaims (run Demo.crypto initial calls).1 (.id 0) none none none = .ok [("alice", 60)] :=
  ⟨.keep (.keep (.leave _ rfl (by decide +kernel) (.leave _ rfl (by decide +kernel) (.keep (.leave _ rfl (by decide +kernel)
    (.nil _)))))), rfl, by decide +kernel, by decide +kernel, by decide +kernel⟩

end Ibcx.Props
