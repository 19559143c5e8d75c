import Verif.Core.NumbersFit
import Verif.Airdrop.Inv
/-!
# Stored numbers of the airdrop contract fit their types

Not part of the model.
-/

namespace Ibcx.Airdrop
open Ibcx Ibcx.Spec.Texts Ibcx.Spec

theorem drops_set {m : KV Nat Drop} {n : Nat} {a : Drop} (hm : ∀ e ∈ m, Number e.1 ∧ OneDropFits e.2) (hn : Number n)
    (ha : OneDropFits a) : ∀ e ∈ m.set n a, Number e.1 ∧ OneDropFits e.2 := by
  intro e he
  rcases Core.KV_mem_set he with rfl | he
  · exact ⟨hn, ha⟩
  · exact hm e he

theorem initial_fits : DropStateFits initial :=
  ⟨by simp [initial, Number], by simp [initial], by simp [initial], by simp [initial]⟩

theorem Fits.execute {c : Crypto} {s s' : State} {env : Env} {info : Info} {msg : ExecMsg} {ms : List Msg}
    (hi : DropStateFits s) (hh : Number env.height) (hfunds : ∀ x ∈ info.funds, Amount x.amount) (hm : DropFits msg)
    (h : execute c s env info msg = .ok (s', ms)) : DropStateFits s' := by
  cases msg with
  | register p =>
    obtain ⟨a, ha, _, hlt, rfl, _⟩ := register_eq_ok.1 h
    refine { hi with latest := hlt, drops := drops_set hi.drops hi.latest ⟨?_, ?_, ?_, ?_⟩, labels := ?_ }
    · have := hfunds ⟨a.denom, a.totalAmount⟩ (by rw [ha.paid.1]; exact List.mem_singleton.2 rfl)
      exact this
    · rw [ha.claimed]; simp [Amount]
    · rw [ha.created]; exact hh
    · rw [ha.notClosed]; simp
    · dsimp only
      split
      · intro e he
        rcases Core.KV_mem_set he with rfl | he
        · exact hi.latest
        · exact hi.labels e he
      · exact hi.labels
  | fund id =>
    obtain ⟨n, a, extra, _, hg, _, _, _, _, hlt, rfl, _⟩ := fund_eq_ok.1 h
    obtain ⟨h1, h2⟩ := hi.drops _ (KV.mem_of_get hg)
    exact { hi with drops := drops_set hi.drops h1 ⟨hlt, h2.2⟩ }
  | claim p =>
    obtain ⟨n, a, _, _, hg, _, _, _, hlt, _, rfl, _⟩ := claim_eq_ok.1 h
    obtain ⟨h1, h2⟩ := hi.drops _ (KV.mem_of_get hg)
    have hamt : Amount (claimAmount p) := by
      cases p with
      | openDrop id n acc proof => exact hm.2
      | bearer id n acc hash sign proof => exact hm.2
    refine { hi with drops := drops_set hi.drops h1 ⟨h2.1, hlt, h2.2.2⟩, claims := ?_ }
    intro e he
    rcases Core.KV_mem_set he with rfl | he
    · exact ⟨h1, hamt⟩
    · exact hi.claims e he
  | close id =>
    obtain ⟨n, a, _, hg, _, _, _, rfl, _⟩ := close_eq_ok.1 h
    obtain ⟨h1, h2⟩ := hi.drops _ (KV.mem_of_get hg)
    exact { hi with drops := drops_set hi.drops h1 ⟨h2.1, h2.2.1, h2.2.2.1, fun x hx => by cases hx; exact hh⟩ }

end Ibcx.Airdrop
