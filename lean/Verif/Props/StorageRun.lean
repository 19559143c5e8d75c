import Verif.Storage.ExecLemmas
import Verif.Props.Storage
/-!
# C94: the airdrop contract on the byte storage

The handlers that read and write bytes, including the upkeep of the secondary indexes, do what the abstract contract
does, for every history.
-/

namespace Ibcx.Props
open Ibcx Ibcx.Iface Ibcx.Storage

/-- The airdrop a message names by id, if it does. -/
def namedId : Airdrop.ExecMsg → Option Airdrop.DropId
  | .register _ => none
  | .fund id => some id
  | .claim (.openDrop id _ _ _) => some id
  | .claim (.bearer id _ _ _ _ _) => some id
  | .close id => some id

/-- The message can be sent: ids are `u64` and the sender's address has at most 65535 bytes. -/
def Sendable (call : Airdrop.Call) : Prop :=
  (∀ n, namedId call.msg = some (.id n) → n < 2 ^ 64) ∧ (textBytes call.info.sender).length ≤ 0xFFFF

open Ibcx.Airdrop in
theorem raw_execute_matches {V : Type} [DropCell V] {c : Crypto} {v : ContractVersion} {s : Airdrop.State} {m : Raw V}
    (hf : DropFits s)
    (hi : Airdrop.Inv s) (hlast : s.latest < 2 ^ 64) (h : Rep m (dropAt v s)) (rd : DropReads V s) (call : Call) (hs : Sendable call) :
    Matches v (rawExecute c m call.env call.info call.msg) (execute c s call.env call.info call.msg) := by
  obtain ⟨env, info, msg⟩ := call
  obtain ⟨hid, hsend⟩ := hs
  dsimp only at hid hsend ⊢
  have hlab : ∀ l n, s.labels.get l = some n → n < 2 ^ 64 := by
    intro l n hl
    obtain ⟨a, ha, _⟩ := hi.labelTo l n hl
    exact hf.ids _ (KV.mem_of_get ha)
  have hcre : ∀ n o, s.drops.get n = some o → (textBytes o.creator).length ≤ 0xFFFF :=
    fun n o ho => hf.creators _ (KV.mem_of_get ho)
  have hload : ∀ id, (∀ n, namedId msg = some id → id = .id n → n < 2 ^ 64) → namedId msg = some id →
      rawLoadAirdrop m id = loadAirdrop s id := by
    intro id hx hn
    exact h.loadAirdrop rd hlab (fun n e => hx n hn e)
  have hload' : ∀ id, namedId msg = some id → rawLoadAirdrop m id = loadAirdrop s id :=
    fun id hn => hload id (fun n hn e => hid n (by rw [hn, e])) hn
  have hgot : ∀ id n a, loadAirdrop s id = .ok (n, a) → s.drops.get n = some a ∧ n < 2 ^ 64 := by
    intro id n a hl
    obtain ⟨_, ha⟩ := loadAirdrop_eq_ok.1 hl
    exact ⟨ha, hf.ids _ (KV.mem_of_get ha)⟩
  -- the end of a registration
  have reg : ∀ a : Drop, a.creator = info.sender → Matches v
      (rawSaveLabel m s.latest a.label >>= fun m => rawSaveDrop m s.latest a >>= fun m => add64 s.latest 1 >>= fun latest =>
        rawPut m .latest (.latest latest) >>= fun m => .ok (m, []))
      (saveLabel s.labels s.latest a.label >>= fun labels => add64 s.latest 1 >>= fun latest =>
        .ok ({ s with labels := labels, drops := s.drops.set s.latest a, latest := latest }, [])) := by
    intro a hac
    rcases h.saveLabel s.latest a.label with ⟨e, h1, h2⟩ | ⟨ls, m1, h1, h2, h3⟩
    · rw [h1, h2]; exact rfl
    · obtain ⟨m2, e2, h4⟩ := h3.saveDrop rd.drops hlast (a := a) (fun o ho => hcre _ o ho) (by rw [hac]; exact hsend)
      rw [h1, h2]
      show Matches v (rawSaveDrop m1 s.latest a >>= _) _
      rw [e2]
      refine Matches.bind (add64 s.latest 1) ?_
      intro n _
      obtain ⟨m3, e3, h5⟩ := h4.putLatest n
      simp only [e3, Bind.bind, Except.bind]
      exact ⟨rfl, h5⟩
  cases msg with
  | register p =>
    cases p with
    | openDrop root denom label =>
      simp only [rawExecute, execute, rawRegister, register, rawRegisterOpen, registerOpen, h.latest rd.latest]
      refine Matches.bind _ (fun _ _ => ?_)
      refine Matches.bind (mustPay info denom) (fun total _ => ?_)
      exact reg
        { kind := .openAirdrop, creator := info.sender, denom := denom, totalAmount := total, totalClaimed := 0
          merkleRoot := root, label := ownLabel info.sender label, createdAt := env.height, closedAt := none } rfl
    | bearer root denom pub sig label =>
      simp only [rawExecute, execute, rawRegister, register, rawRegisterBearer, registerBearer, h.latest rd.latest]
      refine Matches.bind _ (fun _ _ => ?_)
      refine Matches.bind (hexDecode pub) (fun key _ => ?_)
      refine Matches.bind _ (fun _ _ => ?_)
      refine Matches.bind _ (fun _ _ => ?_)
      refine Matches.bind _ (fun _ _ => ?_)
      refine Matches.bind _ (fun total _ => ?_)
      refine Matches.bind _ (fun signer _ => ?_)
      exact reg
        { kind := .bearer signer key, creator := info.sender, denom := denom, totalAmount := total, totalClaimed := 0
          merkleRoot := root, label := ownLabel info.sender label, createdAt := env.height, closedAt := none } rfl
  | fund id =>
    have hk : execute c s env info (.fund id) = (do
        let (n, a) ← loadAirdrop s id
        require (a.creator = info.sender) .unauthorized
        require (a.closedAt = none) .closed
        let extra ← mustPay info a.denom
        let total ← add a.totalAmount extra
        .ok ({ s with drops := s.drops.set n { a with totalAmount := total } }, [])) := by
      simp only [execute, fund]
      congr 1
      funext x
      obtain ⟨n, a⟩ := x
      simp only
      split <;> rfl
    rw [hk]
    simp only [rawExecute, rawFund, hload' id rfl]
    refine Matches.bind _ ?_
    rintro ⟨n, a⟩ hl
    obtain ⟨ha, hn⟩ := hgot id n a hl
    refine Matches.bind _ (fun _ _ => ?_)
    refine Matches.bind _ (fun _ _ => ?_)
    refine Matches.bind _ (fun _ _ => ?_)
    refine Matches.bind _ (fun total _ => ?_)
    obtain ⟨m', e, h1⟩ := h.saveDrop rd.drops hn (a := { a with totalAmount := total }) (fun o ho => hcre _ o ho) (hcre n a ha)
    simp only [e, Bind.bind, Except.bind]
    exact ⟨rfl, h1⟩
  | claim p =>
    cases p with
    | openDrop id amount account proof =>
      simp only [rawExecute, execute, rawClaim, claim, rawClaimOpen, claimOpen, hload' id rfl]
      refine Matches.bind _ (fun claimer _ => ?_)
      refine Matches.bind _ ?_
      rintro ⟨n, a⟩ hl
      obtain ⟨ha, hn⟩ := hgot id n a hl
      simp only [h.notClaimed rd hn]
      refine Matches.bind _ (fun a' ha' => ?_)
      have hcr : a'.creator = a.creator := by
        unfold Drop.unwrapOpen at ha'
        split at ha' <;> cases ha'
        rfl
      refine Matches.bind _ (fun _ _ => ?_)
      refine Matches.bind _ (fun _ _ => ?_)
      refine Matches.bind _ (fun _ _ => ?_)
      refine Matches.bind _ (fun claimed _ => ?_)
      refine Matches.bind _ (fun _ _ => ?_)
      obtain ⟨m1, e1, h1⟩ := h.saveDrop rd.drops hn (a := { a' with totalClaimed := claimed }) (fun o ho => hcre _ o ho)
        (by show (textBytes a'.creator).length ≤ _; rw [hcr]; exact hcre n a ha)
      obtain ⟨m2, e2, h2⟩ := h1.putClaim hn claimer amount
      simp only [e1, e2, Bind.bind, Except.bind]
      exact ⟨rfl, h2⟩
    | bearer id amount account hash sign proof =>
      simp only [rawExecute, execute, rawClaim, claim, rawClaimBearer, claimBearer, hload' id rfl]
      refine Matches.bind _ (fun claimer _ => ?_)
      refine Matches.bind _ ?_
      rintro ⟨n, a⟩ hl
      obtain ⟨ha, hn⟩ := hgot id n a hl
      simp only [h.notClaimed rd hn]
      refine Matches.bind _ ?_
      rintro ⟨a', pub⟩ ha'
      have hcr : a'.creator = a.creator := by
        unfold Drop.unwrapBearer at ha'
        split at ha' <;> cases ha'
        rfl
      refine Matches.bind _ (fun _ _ => ?_)
      refine Matches.bind _ (fun _ _ => ?_)
      refine Matches.bind _ (fun _ _ => ?_)
      refine Matches.bind _ (fun _ _ => ?_)
      refine Matches.bind _ (fun _ _ => ?_)
      refine Matches.bind _ (fun _ _ => ?_)
      refine Matches.bind _ (fun claimed _ => ?_)
      refine Matches.bind _ (fun _ _ => ?_)
      obtain ⟨m1, e1, h1⟩ := h.saveDrop rd.drops hn (a := { a' with totalClaimed := claimed }) (fun o ho => hcre _ o ho)
        (by show (textBytes a'.creator).length ≤ _; rw [hcr]; exact hcre n a ha)
      obtain ⟨m2, e2, h2⟩ := h1.putClaim hn hash amount
      simp only [e1, e2, Bind.bind, Except.bind]
      exact ⟨rfl, h2⟩
  | close id =>
    have hk : execute c s env info (.close id) = (do
        let (n, a) ← loadAirdrop s id
        require (a.creator = info.sender) .unauthorized
        require (a.closedAt = none) .closed
        let redeem ← sub a.totalAmount a.totalClaimed
        .ok ({ s with drops := s.drops.set n { a with closedAt := some env.height } },
          [.send a.creator [⟨a.denom, redeem⟩]])) := by
      simp only [execute, close]
      congr 1
      funext x
      obtain ⟨n, a⟩ := x
      simp only
      split <;> rfl
    rw [hk]
    simp only [rawExecute, rawClose, hload' id rfl]
    refine Matches.bind _ ?_
    rintro ⟨n, a⟩ hl
    obtain ⟨ha, hn⟩ := hgot id n a hl
    refine Matches.bind _ (fun _ _ => ?_)
    refine Matches.bind _ (fun _ _ => ?_)
    refine Matches.bind _ (fun redeem _ => ?_)
    obtain ⟨m', e, h1⟩ := h.saveDrop rd.drops hn (a := { a with closedAt := some env.height }) (fun o ho => hcre _ o ho) (hcre n a ha)
    simp only [e, Bind.bind, Except.bind]
    exact ⟨rfl, h1⟩

/-- In a history of sendable messages all creators fit. -/
theorem creators_fit {c : Airdrop.Crypto} {s : Airdrop.State} {call : Airdrop.Call} (hs : Sendable call)
    (hn : (s.drops.map (·.1)).Nodup) (hc : ∀ e ∈ s.drops, (textBytes e.2.creator).length ≤ 0xFFFF) :
    ∀ e ∈ (Airdrop.step c s call).1.drops, (textBytes e.2.creator).length ≤ 0xFFFF := by
  have key : ∀ (n : Nat) (a : Airdrop.Drop), (textBytes a.creator).length ≤ 0xFFFF →
      ∀ e ∈ s.drops.set n a, (textBytes e.2.creator).length ≤ 0xFFFF := by
    intro n a ha e he
    have h1 := KV.get_of_mem (KV.nodup_set hn) he
    rw [KV.get_set] at h1
    split at h1
    · cases h1; exact ha
    · exact hc _ (KV.mem_of_get h1)
  rcases Airdrop.step_cases c s call with ⟨e, _⟩ | ⟨s', ms, e, _, h⟩
  · rw [e]; exact hc
  · rw [e]
    obtain ⟨env, info, msg⟩ := call
    dsimp only at h
    cases h with
    | register p a new free max =>
      refine key _ a ?_
      rw [new.creator]
      exact hs.2
    | fund id m a extra ht ha hc' ho hf hx max => exact key _ _ (hc _ (KV.mem_of_get ha))
    | close id m a ht ha hc' ho hle => exact key _ _ (hc _ (KV.mem_of_get ha))
    | claim p n a hv ht ha ho hk hp max hle => exact key _ _ (hc _ (KV.mem_of_get ha))

/-- The byte storage of a state represents it. -/
theorem rep_dropRaw (v : ContractVersion) {c : Airdrop.Crypto} {s : Airdrop.State} (hr : Airdrop.Reachable c s)
    (hc : ∀ e ∈ s.drops, (textBytes e.2.creator).length ≤ 0xFFFF) : Rep (dropRaw v s) (dropAt v s) := by
  have hf := drop_fits hr hc
  refine ⟨?_, fun p hp => (C93_airdrop_reads v hr hc p hp).trans (by cases dropAt v s p <;> rfl), ?_⟩
  · have := List.Nodup.map_on (f := fun p : DropPlace => p.slot.bytes) (l := (dropPlaces v s).map (·.1)) (by
      intro a ha b hb h
      obtain ⟨x, hx, rfl⟩ := List.mem_map.1 ha
      obtain ⟨y, hy, rfl⟩ := List.mem_map.1 hb
      exact DropPlace.bytes_inj (drop_place_fits hf x hx) (drop_place_fits hf y hy) h) (drop_places_nodup (v := v) hf)
    simpa [dropRaw, List.map_map, Function.comp_def] using this
  · intro k hk
    cases hx : (dropRaw v s).get k with
    | none => exact absurd hx hk
    | some w =>
      obtain ⟨e, he, h⟩ := List.mem_map.1 (KV.mem_of_get hx)
      exact ⟨e.1, drop_place_fits hf e he, (congrArg Prod.fst h).symm⟩

/-- Two storages representing the same values read and scan alike. -/
theorem rep_same {V : Type} [DropCell V] {m1 m2 : Raw V} {A : DropPlace → Option DropVal} (h1 : Rep m1 A) (h2 : Rep m2 A) :
    (∀ k, m1.get k = m2.get k) ∧
      ∀ p min max order, rangeWithPrefix m1 p min max order = rangeWithPrefix m2 p min max order := by
  have hg : ∀ k, m1.get k = m2.get k := by
    intro k
    by_cases hk : ∃ p : DropPlace, p.Fits ∧ k = p.slot.bytes
    · obtain ⟨p, hp, rfl⟩ := hk
      rw [h1.get p hp, h2.get p hp]
    · have a1 : m1.get k = none := by
        by_contra h
        exact hk (h1.only k h)
      have a2 : m2.get k = none := by
        by_contra h
        exact hk (h2.only k h)
      rw [a1, a2]
  refine ⟨hg, ?_⟩
  have hn1 := h1.nodup
  have hn2 := h2.nodup
  have hp : m1.Perm m2 := by
    refine (List.perm_ext_iff_of_nodup (List.Nodup.of_map _ hn1) (List.Nodup.of_map _ hn2)).2 ?_
    rintro ⟨k, w⟩
    constructor
    · intro h
      exact KV.mem_of_get ((hg k).symm.trans (KV.get_of_mem hn1 h))
    · intro h
      exact KV.mem_of_get ((hg k).trans (KV.get_of_mem hn2 h))
  have hs : sortKeys bytesLt m1 = sortKeys bytesLt m2 :=
    eq_of_sorted bytesLt_strict (((sortKeys_perm m1).trans hp).trans (sortKeys_perm m2).symm)
      (sortKeys_sorted bytesLt_strict hn1) (sortKeys_sorted bytesLt_strict hn2)
  intro p min max order
  simp only [rangeWithPrefix, dbRange, hs]

/-- **C94 (one message).** On a byte storage that holds a reachable state, a message succeeds or fails with the same
error as on the state, sends the same messages, and leaves a byte storage that holds the new state: every key, including
those of the secondary indexes, and every scan. -/
theorem C94_message {c : Airdrop.Crypto} (v : ContractVersion) {s : Airdrop.State} (hr : Airdrop.Reachable c s)
    (hc : ∀ e ∈ s.drops, (textBytes e.2.creator).length ≤ 0xFFFF) (call : Airdrop.Call) (hs : Sendable call) :
    (∀ e, rawExecute c (dropRaw v s) call.env call.info call.msg = .error e ↔
      Airdrop.execute c s call.env call.info call.msg = .error e) ∧
    ∀ s' ms, Airdrop.execute c s call.env call.info call.msg = .ok (s', ms) →
      ∃ m', rawExecute c (dropRaw v s) call.env call.info call.msg = .ok (m', ms) ∧
        (∀ k, m'.get k = (dropRaw v s').get k) ∧
        ∀ p min max order, rangeWithPrefix m' p min max order = rangeWithPrefix (dropRaw v s') p min max order := by
  have hm := raw_execute_matches (c := c) (drop_fits hr hc) hr.inv (drop_ids hr).1 (rep_dropRaw v hr hc) (dropReads_val s)
    call hs
  cases h1 : rawExecute c (dropRaw v s) call.env call.info call.msg with
  | error e =>
    cases h2 : Airdrop.execute c s call.env call.info call.msg with
    | error e' =>
      rw [h1, h2] at hm
      have : e = e' := hm
      subst this
      exact ⟨fun x => by simp, fun s' ms h => by cases h⟩
    | ok o => rw [h1, h2] at hm; exact hm.elim
  | ok x =>
    obtain ⟨m', ms'⟩ := x
    cases h2 : Airdrop.execute c s call.env call.info call.msg with
    | error e' => rw [h1, h2] at hm; exact hm.elim
    | ok o =>
      obtain ⟨s', ms⟩ := o
      rw [h1, h2] at hm
      obtain ⟨e1, e2⟩ := hm
      subst e1
      refine ⟨fun x => by simp, ?_⟩
      intro s'' ms'' h
      cases h
      have hstep : (Airdrop.step c s call).1 = s' := by simp only [Airdrop.step, h2]
      have hr' : Airdrop.Reachable c s' := by
        rw [← hstep]
        exact hr.run [call]
      have hc' := creators_fit (c := c) hs (drops_nodup c hr).1 hc
      rw [hstep] at hc'
      have := rep_same e2 (rep_dropRaw v hr' hc')
      exact ⟨m', rfl, this.1, this.2⟩

/-- Alice's claim on the bytes: the coins are sent and one entry is added. -/
example : (∀ e ∈ (Airdrop.run Airdrop.Demo.crypto Airdrop.initial [Airdrop.Demo.reg, Airdrop.Demo.fund]).1.drops,
      (textBytes e.2.creator).length ≤ 0xFFFF) ∧
    (dropRaw demoVersion (Airdrop.run Airdrop.Demo.crypto Airdrop.initial [Airdrop.Demo.reg, Airdrop.Demo.fund]).1).length = 6 ∧
    (rawExecute Airdrop.Demo.crypto (dropRaw demoVersion
      (Airdrop.run Airdrop.Demo.crypto Airdrop.initial [Airdrop.Demo.reg, Airdrop.Demo.fund]).1)
      Airdrop.Demo.claimAlice.env Airdrop.Demo.claimAlice.info Airdrop.Demo.claimAlice.msg).map
        (fun o => (o.1.length, o.2)) = .ok (7, [.send "alice" [⟨"uosmo", 60⟩]]) :=
  ⟨by decide +kernel, by decide +kernel, by decide +kernel⟩

theorem raw_instantiate_matches (V : Type) [DropCell V] (v : ContractVersion) :
    ∃ m0 : Raw V, rawInstantiate v = .ok m0 ∧ Rep m0 (dropAt v Airdrop.initial) := by
  have h0 : Rep ([] : Raw V) (fun _ => none) := ⟨by simp, fun _ _ => rfl, fun k h => absurd rfl h⟩
  obtain ⟨m1, e1, h1⟩ := h0.put (p := .version) trivial (.version v)
  obtain ⟨m2, e2, h2⟩ := h1.put (p := .latest) trivial (.latest 0)
  refine ⟨m2, ?_, h2.congr ?_⟩
  · simp only [rawInstantiate, e1, e2, Bind.bind, Except.bind]
  · intro q _
    cases q <;> simp [dropAt, Airdrop.initial]

/-- **C94 (histories).** Starting from the instantiated byte storage, every history of sendable messages sends the same
messages as the abstract contract and ends with a byte storage that holds its state. -/
theorem C94_history (c : Airdrop.Crypto) (v : ContractVersion) (calls : List Airdrop.Call) (hs : ∀ call ∈ calls, Sendable call) :
    ∃ m0, rawInstantiate v = .ok m0 ∧
      (rawRun c m0 calls).2 = (Airdrop.run c Airdrop.initial calls).2 ∧
      (∀ k, (rawRun c m0 calls).1.get k = (dropRaw v (Airdrop.run c Airdrop.initial calls).1).get k) ∧
      ∀ p min max order, rangeWithPrefix (rawRun c m0 calls).1 p min max order =
        rangeWithPrefix (dropRaw v (Airdrop.run c Airdrop.initial calls).1) p min max order := by
  obtain ⟨m0, e0, h0⟩ := raw_instantiate_matches DropVal v
  refine ⟨m0, e0, ?_⟩
  have hr0 : Airdrop.Reachable c Airdrop.initial := ⟨[], rfl⟩
  have hc0 : ∀ e ∈ Airdrop.initial.drops, (textBytes e.2.creator).length ≤ 0xFFFF := by simp [Airdrop.initial]
  suffices main : ∀ (s : Airdrop.State) (m : Raw DropVal), Airdrop.Reachable c s →
      (∀ e ∈ s.drops, (textBytes e.2.creator).length ≤ 0xFFFF) → Rep m (dropAt v s) →
      (rawRun c m calls).2 = (Airdrop.run c s calls).2 ∧
      ∃ hr : Airdrop.Reachable c (Airdrop.run c s calls).1,
        (∀ e ∈ (Airdrop.run c s calls).1.drops, (textBytes e.2.creator).length ≤ 0xFFFF) ∧
        Rep (rawRun c m calls).1 (dropAt v (Airdrop.run c s calls).1) by
    obtain ⟨g1, g2, g3, g4⟩ := main _ m0 hr0 hc0 h0
    have := rep_same g4 (rep_dropRaw v g2 g3)
    exact ⟨g1, this.1, this.2⟩
  clear h0 hc0 hr0 e0
  induction calls with
  | nil => exact fun s m hr hc h => ⟨rfl, hr, hc, h⟩
  | cons call calls ih =>
    intro s m hr hc h
    have hsc := hs call (by simp)
    have hm := raw_execute_matches (c := c) (drop_fits hr hc) hr.inv (drop_ids hr).1 h (dropReads_val s) call hsc
    have hstep : (rawStep c m call).2 = (Airdrop.step c s call).2 ∧
        Rep (rawStep c m call).1 (dropAt v (Airdrop.step c s call).1) := by
      unfold rawStep Airdrop.step
      cases h1 : rawExecute c m call.env call.info call.msg with
      | error e =>
        cases h2 : Airdrop.execute c s call.env call.info call.msg with
        | error e' => exact ⟨rfl, h⟩
        | ok o => rw [h1, h2] at hm; exact hm.elim
      | ok x =>
        cases h2 : Airdrop.execute c s call.env call.info call.msg with
        | error e' => rw [h1, h2] at hm; exact hm.elim
        | ok o =>
          rw [h1, h2] at hm
          exact hm
    obtain ⟨g1, g2, g3, g4⟩ := ih (fun x hx => hs x (by simp [hx])) (Airdrop.step c s call).1 (rawStep c m call).1
      (hr.run [call]) (creators_fit hsc (drops_nodup c hr).1 hc) hstep.2
    refine ⟨?_, g2, g3, g4⟩
    show (rawStep c m call).2 ++ (rawRun c (rawStep c m call).1 calls).2 = (Airdrop.step c s call).2 ++ _
    rw [hstep.1, g1]
    rfl

/-- The history of `stored`: its messages are sendable, and the byte storage after it has eleven keys. -/
example : ∀ call ∈ [Airdrop.Demo.reg, Airdrop.Demo.fund, Airdrop.Demo.claimAlice, Airdrop.Demo.regBearer, Airdrop.Demo.claimSalt],
    Sendable call := by
  intro call hc
  simp only [List.mem_cons, List.not_mem_nil, or_false] at hc
  rcases hc with rfl | rfl | rfl | rfl | rfl
  · exact ⟨fun n h => (by cases h), by decide⟩
  · exact ⟨fun n h => (by cases h), by decide⟩
  · exact ⟨fun n h => (by cases h; decide), by decide⟩
  · exact ⟨fun n h => (by cases h), by decide⟩
  · exact ⟨fun n h => (by cases h; decide), by decide⟩

/-- Run on bytes. -/
example : (rawInstantiate (V := DropVal) demoVersion).map (fun m0 =>
      ((rawRun Airdrop.Demo.crypto m0 [Airdrop.Demo.reg, Airdrop.Demo.fund, Airdrop.Demo.claimAlice, Airdrop.Demo.regBearer,
        Airdrop.Demo.claimSalt]).1.length,
      (rawRun Airdrop.Demo.crypto m0 [Airdrop.Demo.reg, Airdrop.Demo.fund, Airdrop.Demo.claimAlice, Airdrop.Demo.regBearer,
        Airdrop.Demo.claimSalt]).2)) =
    .ok (11, [.send "alice" [⟨"uosmo", 60⟩], .send "bob" [⟨"uosmo", 7⟩]]) := by
  decide +kernel

end Ibcx.Props
