import Mathlib.Data.List.Nodup
import Verif.KVLemmas
import Verif.Props.Merkle
import Verif.Props.VerifyClaim
/-!
# Further properties of the airdrop contract (C58, C59)
-/

namespace Ibcx.Props
open Ibcx Ibcx.Airdrop Ibcx.Spec

/-! ### C58: signatures are not bound to an airdrop -/

/-- **C58.** The signature of a bearer claim is not bound to its airdrop: whenever a bearer claim was accepted on one
airdrop, the very same payload addressed to any other open bearer airdrop with the same signer key, whose Merkle root
proves the same claim hash and amount, is accepted as well (once, while funds last). -/
theorem C58_bearer_signature_replays {c : Crypto} {s s' s1 : State} {env env' : Env} {info : Info} {id : DropId}
    {amount : Nat} {account : Option String} {hash sign : String} {proof proof' : List String} {ms : List Msg}
    (h : execute c s env info (.claim (.bearer id amount account hash sign proof)) = .ok (s', ms))
    {m n : Nat} {a b : Drop} {sa sb : Addr} {pub : Bytes} (hm : target s id = some m) (ha : s.drops.get m = some a)
    (hka : a.kind = .bearer sa pub) (hb : s1.drops.get n = some b) (hkb : b.kind = .bearer sb pub)
    (hob : b.closedAt = none) (hproof : verifyMerkleProof c b.merkleRoot proof' hash amount = .ok ())
    (hfree : s1.claims.get (n, hash) = none) (hfunds : b.totalClaimed + amount ≤ b.totalAmount)
    (hmax : b.totalAmount < U128) (hv : ∀ x, account = some x → env'.validAddr x = true) :
    ∃ s2, execute c s1 env' info (.claim (.bearer (.id n) amount account hash sign proof')) =
      .ok (s2, [.send (account.getD info.sender) [⟨b.denom, amount⟩]]) := by
  obtain ⟨m', a', signer, pub', sig, h1, h2, h3, _, _, h6, h7, _⟩ := C39_bearer_claim h
  rw [hm] at h1; cases h1
  rw [ha] at h2; cases h2
  rw [hka] at h3; cases h3
  exact ⟨_, execute_change.2 (.claim _ n b hv rfl hb hob hfree ⟨sb, pub, sig, hkb, hproof, h6, h7⟩
    (Nat.lt_of_le_of_lt hfunds hmax) hfunds)⟩

/-- Two bearer airdrops of the same signer with the same leaf: one signature is paid twice. -/
example : (run Demo.crypto initial [Demo.regBearer, Demo.regBearer,
      ⟨Demo.env 15, ⟨"bob", []⟩, .claim (readdress (.id 0) saltClaim)⟩,
      ⟨Demo.env 16, ⟨"bob", []⟩, .claim (readdress (.id 1) saltClaim)⟩]).2 =
    [.send "bob" [⟨"uosmo", 7⟩], .send "bob" [⟨"uosmo", 7⟩]] := by
  decide +kernel

/-! ### C59: an airdrop never pays more than its tree holds -/

/-- The strings hashed in checking the proof of a claim do not collide with those hashed in building the tree, and
the text of the claim is not 64 bytes long. -/
def CleanClaim (c : Crypto) (t : MerkleTree) (info : Info) : ClaimPayload → Prop
  | .openDrop _ amount account proof =>
    (leafBytes (account.getD info.sender) amount).length ≠ 64 ∧
    ∀ path, List.Forall₂ (fun p q => hexDecode32 p = .ok q) proof path →
      ∀ x ∈ t.hashed c, ∀ y ∈ checkHashed c (account.getD info.sender) amount path, c.sha x = c.sha y → x = y
  | .bearer _ amount _ hash _ proof =>
    (leafBytes hash amount).length ≠ 64 ∧
    ∀ path, List.Forall₂ (fun p q => hexDecode32 p = .ok q) proof path →
      ∀ x ∈ t.hashed c, ∀ y ∈ checkHashed c hash amount path, c.sha x = c.sha y → x = y

private theorem has_of_verify {c : Crypto} {t : MerkleTree} {root : String} {proof : List String} {who : String}
    {amount : Nat} (hroot : hexDecode32 root = .ok (t.hash c)) (htree : ∀ w a, t.Has w a → (leafBytes w a).length ≠ 64)
    (hlen : (leafBytes who amount).length ≠ 64)
    (hcol : ∀ path, List.Forall₂ (fun p q => hexDecode32 p = .ok q) proof path →
      ∀ x ∈ t.hashed c, ∀ y ∈ checkHashed c who amount path, c.sha x = c.sha y → x = y)
    (h : verifyMerkleProof c root proof who amount = .ok ()) : t.Has who amount := by
  obtain ⟨path, hp, _⟩ := verifyMerkleProof_eq_ok.1 h
  rcases C37_accepted_proofs_are_leaves hroot hp h with h | ⟨x, hx, y, hy, hne, he⟩ | ⟨h, _⟩ | ⟨w, b, h, h', _⟩
  · exact h
  · exact absurd (hcol path hp x hx y hy he) hne
  · exact absurd h hlen
  · exact absurd h' (htree w b h)

private theorem leaves_run (c : Crypto) (t : MerkleTree) (n : Nat) (htree : ∀ w a, t.Has w a → (leafBytes w a).length ≠ 64)
    (calls : List Call) : ∀ s, Airdrop.Inv s →
    (∀ call ∈ calls, ∀ p, call.msg = .claim p → CleanClaim c t call.info p) →
    (∀ a, (run c s calls).1.drops.get n = some a → hexDecode32 a.merkleRoot = .ok (t.hash c)) →
    (∀ k x, s.claims.get (n, k) = some x → t.Has k x) →
    ∀ k x, (run c s calls).1.claims.get (n, k) = some x → t.Has k x := by
  induction calls with
  | nil => intro s _ _ _ h; exact h
  | cons call calls ih =>
    intro s hi hclean hroot hs
    suffices hnext : ∀ k x, (step c s call).1.claims.get (n, k) = some x → t.Has k x from
      ih _ (hi.step (c := c) call) (fun x hx => hclean x (by simp [hx])) hroot hnext
    have hg := grows_run (c := c) hi (call :: calls)
    rcases step_cases c s call with ⟨e, _⟩ | ⟨s', ms, e, _, h⟩
    · rw [e]; exact hs
    · rw [e]
      have hcl := hclean call (by simp)
      generalize hm : call.msg = msg at h
      cases h with
      | register p a new free max => exact hs
      | fund id m a extra ht ha hc ho hf hx max => exact hs
      | close id m a ht ha hc ho hle => exact hs
      | claim p m a hv ht ha ho hk hp max hle =>
        intro k x hx
        simp only [KV.get_set] at hx
        split at hx
        · rename_i e'
          simp only [Prod.mk.injEq] at e'
          obtain ⟨rfl, rfl⟩ := e'
          cases hx
          obtain ⟨a', ha', _, _, _, hmr, _⟩ := hg.drops _ _ ha
          have hr := hroot a' ha'
          rw [hmr] at hr
          have hc := hcl p hm
          cases p with
          | openDrop id amount acc proof =>
            exact has_of_verify hr htree hc.1 hc.2 hp.2
          | bearer id amount acc hash sign proof =>
            obtain ⟨sg, pub, sig, _, hp, _⟩ := hp
            exact has_of_verify hr htree hc.1 hc.2 hp
        · exact hs k x hx

/-- Entries with different keys that are all leaves sum to at most the total of the tree. -/
private theorem sum_le_total (t : MerkleTree) : ∀ es : List (String × Nat), (es.map (·.1)).Nodup →
    (∀ e ∈ es, t.Has e.1 e.2) → (es.map (·.2)).sum ≤ t.total := by
  classical
  induction t with
  | leaf w a =>
    intro es hn h
    cases es with
    | nil => simp
    | cons e es =>
      have h1 := h e (by simp)
      cases es with
      | nil => simp [MerkleTree.total, h1.2]
      | cons e' es =>
        have h2 := h e' (by simp)
        simp [← h1.1, ← h2.1] at hn
  | node l r ihl ihr =>
    intro es hn h
    have split : ∀ es : List (String × Nat), (es.map (·.2)).sum =
        ((es.filter (fun e => decide (l.Has e.1 e.2))).map (·.2)).sum +
        ((es.filter (fun e => !decide (l.Has e.1 e.2))).map (·.2)).sum := by
      intro es
      induction es with
      | nil => rfl
      | cons e es ih =>
        by_cases hl : l.Has e.1 e.2 <;> simp [hl, ih] <;> omega
    rw [split es]
    have h1 := ihl (es.filter (fun e => decide (l.Has e.1 e.2)))
      ((List.filter_sublist.map _).nodup hn) (by intro e he; simpa using (List.mem_filter.1 he).2)
    have h2 := ihr (es.filter (fun e => !decide (l.Has e.1 e.2)))
      ((List.filter_sublist.map _).nodup hn) (by
        intro e he
        have he' := List.mem_filter.1 he
        have : ¬ l.Has e.1 e.2 := by simpa using he'.2
        exact (h e he'.1).resolve_left this)
    simp only [MerkleTree.total]
    omega

private theorem nodup_run (c : Crypto) (calls : List Call) : ∀ s, (s.claims.map (·.1)).Nodup →
    ((run c s calls).1.claims.map (·.1)).Nodup := by
  induction calls with
  | nil => intro s h; exact h
  | cons call calls ih =>
    intro s hn
    suffices hnext : ((step c s call).1.claims.map (·.1)).Nodup from ih _ hnext
    rcases step_cases c s call with ⟨e, _⟩ | ⟨s', ms, e, _, h⟩
    · rw [e]; exact hn
    · rw [e]
      generalize call.msg = msg at h
      cases h with
      | register p a new free max => exact hn
      | fund id m a extra ht ha hc ho hf hx max => exact hn
      | close id m a ht ha hc ho hle => exact hn
      | claim p m a hv ht ha ho hk hp max hle => exact KV.nodup_set hn

private theorem recorded_eq (n : Nat) (cl : KV (Nat × String) Nat) :
    (cl.map (fun e => if e.1.1 = n then e.2 else 0)).sum =
      (((cl.filter (fun e => e.1.1 = n)).map (fun e => (e.1.2, e.2))).map (·.2)).sum := by
  induction cl with
  | nil => rfl
  | cons e cl ih =>
    by_cases h : e.1.1 = n
    · simp [h, ih]
    · simp [h, ih]

/-- The records of an airdrop as a list of leaves with distinct keys. -/
private theorem records (c : Crypto) (t : MerkleTree) (n : Nat) (calls : List Call) (a : Drop)
    (ha : (run c initial calls).1.drops.get n = some a) (hroot : hexDecode32 a.merkleRoot = .ok (t.hash c))
    (htree : ∀ w x, t.Has w x → (leafBytes w x).length ≠ 64)
    (hclean : ∀ call ∈ calls, ∀ p, call.msg = .claim p → CleanClaim c t call.info p) :
    (∀ k x, (run c initial calls).1.claims.get (n, k) = some x → t.Has k x) ∧
    ∃ es : List (String × Nat), (es.map (·.1)).Nodup ∧ (∀ e ∈ es, t.Has e.1 e.2) ∧
      (es.map (·.2)).sum = a.totalClaimed ∧ ∀ e ∈ es, (run c initial calls).1.claims.get (n, e.1) = some e.2 := by
  have hl := leaves_run c t n htree calls initial inv_initial hclean
    (by intro b hb; rw [ha] at hb; cases hb; exact hroot) (by intro k x h; cases h)
  refine ⟨hl, ?_⟩
  have hn := nodup_run c calls initial (by simp [initial])
  have h2 := (inv_initial.run (c := c) calls).recorded n a ha
  unfold recorded at h2
  rw [recorded_eq] at h2
  have hget : ∀ e ∈ (List.filter (fun e => decide (e.1.1 = n)) (run c initial calls).1.claims).map
      (fun e => (e.1.2, e.2)), (run c initial calls).1.claims.get (n, e.1) = some e.2 := by
    intro e he
    obtain ⟨e1, h1, rfl⟩ := List.mem_map.1 he
    obtain ⟨h2, h3⟩ := List.mem_filter.1 h1
    have h3 : e1.1.1 = n := by simpa using h3
    apply KV.get_of_mem hn
    rw [← h3]
    exact h2
  refine ⟨_, ?_, fun e he => hl _ _ (hget e he), h2, hget⟩
  rw [List.map_map]
  have : ((fun x : String × Nat => x.1) ∘ fun e : (Nat × String) × Nat => (e.1.2, e.2)) = fun e => e.1.2 := rfl
  rw [this]
  have hs := (List.filter_sublist (l := (run c initial calls).1.claims)
    (p := fun e => decide (e.1.1 = n))).map (·.1)
  have hn' := hs.nodup hn
  have : ((List.filter (fun e => decide (e.1.1 = n)) (run c initial calls).1.claims).map (fun e => e.1.2)) =
      ((List.filter (fun e => decide (e.1.1 = n)) (run c initial calls).1.claims).map (·.1)).map (·.2) := by
    rw [List.map_map]; rfl
  rw [this]
  refine List.Nodup.map_on ?_ hn'
  intro x hx y hy e
  obtain ⟨e1, h1, rfl⟩ := List.mem_map.1 hx
  obtain ⟨e2, h2, rfl⟩ := List.mem_map.1 hy
  have g1 : e1.1.1 = n := by simpa using (List.mem_filter.1 h1).2
  have g2 : e2.1.1 = n := by simpa using (List.mem_filter.1 h2).2
  exact Prod.ext (g1.trans g2.symm) e

/-- **C59.** Take any history and any airdrop whose registered root is the root of a tree.  If the hash function does
not collide on the strings hashed for the claims of the history and no text involved is 64 bytes long, then every
recorded claim is a leaf of the tree, and all accepted claims together paid at most the total of the tree. -/
theorem C59_paid_at_most_tree_total (c : Crypto) (t : MerkleTree) (n : Nat) (calls : List Call) (a : Drop)
    (ha : (run c initial calls).1.drops.get n = some a) (hroot : hexDecode32 a.merkleRoot = .ok (t.hash c))
    (htree : ∀ w x, t.Has w x → (leafBytes w x).length ≠ 64)
    (hclean : ∀ call ∈ calls, ∀ p, call.msg = .claim p → CleanClaim c t call.info p) :
    (∀ k x, (run c initial calls).1.claims.get (n, k) = some x → t.Has k x) ∧
    claimedBy c n initial calls ≤ t.total := by
  obtain ⟨hl, es, h1, h2, h3, _⟩ := records c t n calls a ha hroot htree hclean
  refine ⟨hl, ?_⟩
  rw [← ((C31_never_pays_more_than_funded c calls n).2 a ha).2, ← h3]
  exact sum_le_total t es h1 h2

/-- The tree of the examples holds 100; 60 of it was paid. -/
example : (MerkleTree.node (.leaf "alice" 60) (.leaf "bob" 40)).total = 100 ∧
    ((run Demo.crypto initial dropHistory).1.drops.get 0).map (·.merkleRoot) = some Demo.root ∧
    hexDecode32 Demo.root = .ok ((MerkleTree.node (.leaf "alice" 60) (.leaf "bob" 40)).hash Demo.crypto) ∧
    claimedBy Demo.crypto 0 initial dropHistory = 60 := by
  decide +kernel

/-! ### C90: a fully funded airdrop pays everyone on its list -/

private theorem path_accepted {c : Crypto} {t : MerkleTree} {root who : String} {x : Nat} {path : List Hash32}
    (hroot : hexDecode32 root = .ok (t.hash c)) (h : t.Path c who x path) :
    verifyMerkleProof c root (path.map (fun q => hexText q.bytes)) who x = .ok () := by
  obtain ⟨path', h1, h2⟩ := verifyMerkleProof_eq_ok.1 (C37_leaf_proofs_are_accepted h)
  rw [hexDecode32_hexText] at h2
  exact verifyMerkleProof_eq_ok.2 ⟨path', h1, by rw [hroot]; exact h2⟩

/-- What is left for a leaf that was not claimed. -/
private theorem enough_left {c : Crypto} {t : MerkleTree} {n : Nat} {calls : List Call} {a : Drop}
    (ha : (run c initial calls).1.drops.get n = some a) (hroot : hexDecode32 a.merkleRoot = .ok (t.hash c))
    (htree : ∀ w x, t.Has w x → (leafBytes w x).length ≠ 64)
    (hclean : ∀ call ∈ calls, ∀ p, call.msg = .claim p → CleanClaim c t call.info p) {who : String} {x : Nat}
    (hw : t.Has who x) (hun : (run c initial calls).1.claims.get (n, who) = none) : a.totalClaimed + x ≤ t.total := by
  obtain ⟨_, es, h1, h2, h3, h4⟩ := records c t n calls a ha hroot htree hclean
  have := sum_le_total t ((who, x) :: es) (by
    rw [List.map_cons, List.nodup_cons]
    refine ⟨fun hm => ?_, h1⟩
    obtain ⟨e, he, hee⟩ := List.mem_map.1 hm
    have := h4 e he
    rw [hee, hun] at this
    cases this) (by
    intro e he
    rcases List.mem_cons.1 he with rfl | he
    · exact hw
    · exact h2 e he)
  rw [List.map_cons, List.sum_cons, h3] at this
  omega

/-- **C90 (open airdrops).** Take any history of any messages from anyone and an open airdrop that is not closed, whose
registered root is the root of a tree and which was funded with at least the total of the tree.  If the hash function
does not collide on the strings hashed for the claims of the history and no text involved is 64 bytes long, then every
account on the list that was not paid yet can still claim its whole amount, with the path of its leaf, whatever the
others did before. -/
theorem C90_everyone_can_claim {c : Crypto} {t : MerkleTree} {n : Nat} {calls : List Call} {a : Drop}
    (ha : (run c initial calls).1.drops.get n = some a) (hk : a.kind = .openAirdrop) (ho : a.closedAt = none)
    (hroot : hexDecode32 a.merkleRoot = .ok (t.hash c)) (hfund : t.total ≤ a.totalAmount) (hmax : t.total < 2 ^ 128)
    (htree : ∀ w x, t.Has w x → (leafBytes w x).length ≠ 64)
    (hclean : ∀ call ∈ calls, ∀ p, call.msg = .claim p → CleanClaim c t call.info p) {who : String} {x : Nat}
    (hw : t.Has who x) (hun : (run c initial calls).1.claims.get (n, who) = none) {path : List Hash32}
    (hpath : t.Path c who x path) (env : Env) (info : Info) (hv : env.validAddr who = true) :
    ∃ s', execute c (run c initial calls).1 env info
        (.claim (.openDrop (.id n) x (some who) (path.map (fun q => hexText q.bytes)))) =
      .ok (s', [.send who [⟨a.denom, x⟩]]) := by
  have hl := enough_left ha hroot htree hclean hw hun
  refine ⟨_, execute_change.2 (.claim _ n a ?_ rfl ha ho hun ⟨hk, ?_⟩ ?_ (le_trans hl hfund))⟩
  · intro y hy
    simp only [claimAccount, Option.some.injEq] at hy
    exact hy ▸ hv
  · exact path_accepted hroot hpath
  · exact Nat.lt_of_le_of_lt hl hmax

/-- An airdrop funded with 100 for Alice's 60 and Bob's 40: Bob is paid after Alice. -/
example : ((run Demo.crypto initial [Demo.reg, Demo.fund, { Demo.fund with info := ⟨"carol", [⟨"uosmo", 20⟩]⟩ },
      Demo.claimAlice]).1.drops.get 0).map (fun a => (a.kind, a.totalAmount, a.closedAt)) =
      some (.openAirdrop, 100, none) ∧
    (MerkleTree.node (.leaf "alice" 60) (.leaf "bob" 40)).total = 100 ∧
    hexDecode32 Demo.root = .ok ((MerkleTree.node (.leaf "alice" 60) (.leaf "bob" 40)).hash Demo.crypto) ∧
    (execute Demo.crypto (run Demo.crypto initial [Demo.reg, Demo.fund,
      { Demo.fund with info := ⟨"carol", [⟨"uosmo", 20⟩]⟩ }, Demo.claimAlice]).1 Demo.claimBob.env Demo.claimBob.info
      Demo.claimBob.msg).map (·.2) = .ok [.send "bob" [⟨"uosmo", 40⟩]] := by
  decide +kernel

/-- **C90 (bearer airdrops).** The same for bearer airdrops: every hash on the list that was not used yet can still be
claimed by whoever the signer's key signed it for. -/
theorem C90_every_bearer_can_claim {c : Crypto} {t : MerkleTree} {n : Nat} {calls : List Call} {a : Drop} {signer : Addr}
    {key : Bytes} (ha : (run c initial calls).1.drops.get n = some a) (hk : a.kind = .bearer signer key)
    (ho : a.closedAt = none) (hroot : hexDecode32 a.merkleRoot = .ok (t.hash c)) (hfund : t.total ≤ a.totalAmount)
    (hmax : t.total < 2 ^ 128) (htree : ∀ w x, t.Has w x → (leafBytes w x).length ≠ 64)
    (hclean : ∀ call ∈ calls, ∀ p, call.msg = .claim p → CleanClaim c t call.info p) {hash : String} {x : Nat}
    (hw : t.Has hash x) (hun : (run c initial calls).1.claims.get (n, hash) = none) {path : List Hash32}
    (hpath : t.Path c hash x path) (env : Env) (info : Info) {who : Addr} (hv : env.validAddr who = true) {sign : String}
    {sig : Bytes} (hsig : hexDecode sign = .ok sig)
    (hver : c.verify (c.sha (hash ++ "/" ++ who ++ "/" ++ toString x).toUTF8.data.toList) sig key = .ok true) :
    ∃ s', execute c (run c initial calls).1 env info
        (.claim (.bearer (.id n) x (some who) hash sign (path.map (fun q => hexText q.bytes)))) =
      .ok (s', [.send who [⟨a.denom, x⟩]]) := by
  have hl := enough_left ha hroot htree hclean hw hun
  refine ⟨_, execute_change.2 (.claim _ n a ?_ rfl ha ho hun ⟨signer, key, sig, hk, ?_, hsig, hver⟩ ?_ (le_trans hl hfund))⟩
  · intro y hy
    simp only [claimAccount, Option.some.injEq] at hy
    exact hy ▸ hv
  · exact path_accepted hroot hpath
  · exact Nat.lt_of_le_of_lt hl hmax

/-- A fully funded bearer airdrop with one hash on its list; bob's claim with the signer's signature is accepted. -/
example : ((run Demo.crypto initial [Demo.reg, Demo.regBearer]).1.drops.get 1).map (fun a => (a.kind, a.totalAmount)) =
      some (.bearer "osmo1signer" [1, 2], 70) ∧ (MerkleTree.leaf "salt" 7).total = 7 ∧
    (run Demo.crypto initial [Demo.reg, Demo.regBearer, Demo.claimSalt]).2 = [.send "bob" [⟨"uosmo", 7⟩]] := by
  decide +kernel

end Ibcx.Props
