import Verif.Spec.Core
import Verif.Core.Inv
/-!
# Specification vocabulary versus model helpers

Lemmas used in the proofs of the properties; not part of the model or of the specification.
-/

namespace Ibcx.Spec
open Ibcx Ibcx.Core

theorem ONE_eq : ONE = 1000000000000000000 := by norm_num [ONE]

theorem part_eq (u a : Nat) : part u a = u * a / ONE := by rw [part, ONE_eq]

theorem total_eq (d : Denom) (cs : List Coin) : total d cs = amountOf d cs := by
  induction cs with
  | nil => rfl
  | cons c cs ih =>
    unfold total at *
    by_cases h : c.denom = d <;> simp [h, ih]

@[simp] theorem total_nil (d : Denom) : total d [] = 0 := rfl

theorem lookup_eq (us : Units) (d : Denom) : us.lookup d = us.getKey d := by
  induction us with
  | nil => rfl
  | cons e us ih =>
    obtain ⟨k, v⟩ := e
    unfold Units.getKey
    by_cases h : k = d
    · subst h; simp [List.lookup]
    · rw [if_neg h, ← ih, List.lookup_cons]
      have : (d == k) = false := by simpa using fun e => h e.symm
      simp [this]

theorem pausedAt_iff {s : State} {t : Nat} :
    (s.config.paused.refresh t).paused = true ↔ pausedAt s t := refresh_paused

theorem not_pausedAt_iff {s : State} {t : Nat} :
    (s.config.paused.refresh t).paused = false ↔ ¬ pausedAt s t := refresh_not_paused

@[simp] theorem minted_append (d : Denom) (a b : List Msg) : minted d (a ++ b) = minted d a + minted d b := by
  induction a with
  | nil => simp [minted]
  | cons m a ih => cases m <;> simp [minted, ih]; omega

@[simp] theorem burned_append (d : Denom) (a b : List Msg) : burned d (a ++ b) = burned d a + burned d b := by
  induction a with
  | nil => simp [burned]
  | cons m a ih => cases m <;> simp [burned, ih]; omega

@[simp] theorem sent_append (d : Denom) (a b : List Msg) : sent d (a ++ b) = sent d a + sent d b := by
  induction a with
  | nil => simp [sent]
  | cons m a ih => cases m <;> simp [sent, ih]; omega

@[simp] theorem sentTo_append (x : Addr) (d : Denom) (a b : List Msg) :
    sentTo x d (a ++ b) = sentTo x d a + sentTo x d b := by
  induction a with
  | nil => simp [sentTo]
  | cons m a ih => cases m <;> simp [sentTo, ih]; omega

theorem accepted_iff {s : State} {c : Call} : accepted s c ↔ (execute s c.env c.info c.msg).isOk = true := by
  unfold accepted
  cases h : execute s c.env c.info c.msg with
  | ok o => exact ⟨fun _ => rfl, fun _ => ⟨o.1, o.2, rfl⟩⟩
  | error e => simp [Except.isOk, Except.toBool]

instance (s : State) (c : Call) : Decidable (accepted s c) := decidable_of_iff _ accepted_iff.symm

theorem step_of_not_accepted {s : State} {c : Call} (h : ¬ accepted s c) : step s c = (s, []) := by
  unfold step
  cases hx : execute s c.env c.info c.msg with
  | ok o => exact absurd ⟨o.1, o.2, hx⟩ h
  | error e => rfl

theorem step_of_ok {s s' : State} {c : Call} {ms : List Msg} (h : execute s c.env c.info c.msg = .ok (s', ms)) :
    step s c = (s', ms) := by
  unfold step; rw [h]

/-- Messages that do not occur are not accepted. -/
theorem noneAccepted_of_forall {P : ExecMsg → Prop} {s : State} {cs : List Call} (h : ∀ c ∈ cs, ¬ P c.msg) :
    NoneAccepted P s cs := by
  induction cs generalizing s with
  | nil => trivial
  | cons c cs ih => exact ⟨fun hp => absurd hp (h c (by simp)), ih (fun c hc => h c (by simp [hc]))⟩

theorem noneAccepted_append {P : ExecMsg → Prop} {s : State} {cs ds : List Call} :
    NoneAccepted P s (cs ++ ds) ↔ NoneAccepted P s cs ∧ NoneAccepted P (run s cs).1 ds := by
  induction cs generalizing s with
  | nil => simp [NoneAccepted, run]
  | cons c cs ih => simp [NoneAccepted, ih, run_cons, and_assoc]

/-- Induction over a history in which no message of kind `Q` is accepted. -/
theorem run_induct {I : State → Prop} {Q : ExecMsg → Prop} {T : Call → Prop}
    (hstep : ∀ s s' c ms, Reachable s → I s → T c → ¬ Q c.msg →
      execute s c.env c.info c.msg = .ok (s', ms) → I s')
    {s : State} {cs : List Call} (hr : Reachable s) (hi : I s) (ht : ∀ c ∈ cs, T c)
    (hq : NoneAccepted Q s cs) : I (run s cs).1 := by
  induction cs generalizing s with
  | nil => exact hi
  | cons c cs ih =>
    rw [run_cons]
    obtain ⟨h1, h2⟩ := hq
    by_cases ha : accepted s c
    · obtain ⟨s', ms, hx⟩ := ha
      have he := step_of_ok hx
      rw [he] at h2 ⊢
      exact ih (hr.execute hx)
        (hstep s s' c ms hr hi (ht c (by simp)) (fun hq => h1 hq ⟨s', ms, hx⟩) hx)
        (fun c hc => ht c (by simp [hc])) h2
    · rw [step_of_not_accepted ha] at h2 ⊢
      exact ih hr hi (fun c hc => ht c (by simp [hc])) h2

end Ibcx.Spec
