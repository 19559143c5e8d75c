import Verif.Props.AirdropChain
import Verif.Props.AirdropMore
/-!
# C90 on the chain: everyone on the list of a fully funded airdrop is paid
-/

namespace Ibcx.Props
open Ibcx Ibcx.Airdrop Ibcx.Spec Ibcx.Chain

private theorem deliver_call (c : Crypto) (w : Chain.Airdrop.World) (tx : Chain.Airdrop.Tx) :
    (Chain.Airdrop.deliver c w tx).self = w.self ∧
    ((Chain.Airdrop.deliver c w tx).drop = w.drop ∨
      ∃ call, tx = .call call ∧ (Chain.Airdrop.deliver c w tx).drop = (run c w.drop [call]).1) := by
  unfold Chain.Airdrop.deliver
  cases h : Chain.Airdrop.apply c w tx with
  | error e => exact ⟨rfl, .inl rfl⟩
  | ok w' =>
    cases tx with
    | call call =>
      simp only [Chain.Airdrop.apply, bind_eq_ok, require_eq_ok, Except.ok.injEq] at h
      obtain ⟨_, h1, b, h2, ⟨s', ms⟩, h3, b', h4, rfl⟩ := h
      refine ⟨rfl, .inr ⟨call, rfl, ?_⟩⟩
      simp only [run, step, h3]
    | transfer src dst cs =>
      simp only [Chain.Airdrop.apply, bind_eq_ok, require_eq_ok, Except.ok.injEq] at h
      obtain ⟨_, h1, b, _, rfl⟩ := h
      exact ⟨rfl, .inl rfl⟩
    | inflow dst x =>
      simp only [Chain.Airdrop.apply, Except.ok.injEq] at h
      subst h
      exact ⟨rfl, .inl rfl⟩

/-- The contract's state on the chain is the result of a history of some of the messages. -/
private theorem chain_calls (c : Crypto) (w : Chain.Airdrop.World) (txs : List Chain.Airdrop.Tx) :
    (Chain.Airdrop.runTxs c w txs).self = w.self ∧
    ∃ calls, (∀ call ∈ calls, .call call ∈ txs) ∧ (Chain.Airdrop.runTxs c w txs).drop = (run c w.drop calls).1 := by
  induction txs generalizing w with
  | nil => exact ⟨rfl, [], by simp, rfl⟩
  | cons tx txs ih =>
    obtain ⟨h1, h2⟩ := deliver_call c w tx
    obtain ⟨h3, calls, h4, h5⟩ := ih (Chain.Airdrop.deliver c w tx)
    refine ⟨h3.trans h1, ?_⟩
    rcases h2 with h2 | ⟨call, rfl, h2⟩
    · refine ⟨calls, fun x hx => List.mem_cons_of_mem _ (h4 x hx), ?_⟩
      show (Chain.Airdrop.runTxs c (Chain.Airdrop.deliver c w tx) txs).drop = _
      rw [h5, h2]
    · refine ⟨call :: calls, ?_, ?_⟩
      · intro x hx
        rcases List.mem_cons.1 hx with rfl | hx
        · simp
        · exact List.mem_cons_of_mem _ (h4 x hx)
      · show (Chain.Airdrop.runTxs c (Chain.Airdrop.deliver c w (.call call)) txs).drop = _
        rw [h5, h2]
        rfl

private theorem paid {c : Crypto} {w w' : Chain.Airdrop.World} {env : Env} {sender : Addr} {msg : ExecMsg} {s' : State}
    {who : Addr} {d : Denom} {x : Nat} (hx : execute c w.drop env ⟨sender, []⟩ msg = .ok (s', [.send who [⟨d, x⟩]]))
    (h : Chain.Airdrop.apply c w (.call ⟨env, ⟨sender, []⟩, msg⟩) = .ok w') (hws : who ≠ w.self) :
    w'.bank.bal who d = w.bank.bal who d + x := by
  simp only [Chain.Airdrop.apply, bind_eq_ok, require_eq_ok, Except.ok.injEq, send_eq_ok] at h
  obtain ⟨_, _, b, ⟨_, rfl⟩, ⟨s2, ms⟩, h3, b', h4, rfl⟩ := h
  rw [hx] at h3
  cases h3
  simp only [Chain.runMsgs, Chain.runMsg, bind_eq_ok, Except.ok.injEq, send_eq_ok] at h4
  obtain ⟨_, ⟨b2, ⟨_, rfl⟩, rfl⟩, h5⟩ := h4
  simp only [Except.ok.injEq] at h5
  subst h5
  simp [hws, total]

/-- **C90 (on the chain).** From the creation of the contract on, whatever happens on the chain: as long as an open
airdrop whose root is the root of a tree is not closed and was funded with at least the total of the tree, a transaction
by anyone claiming an unpaid leaf for its account goes through and the account receives the whole amount. -/
theorem C90_everyone_is_paid {c : Crypto} {t : MerkleTree} {w : Chain.Airdrop.World} (h0 : w.drop = initial)
    {txs : List Chain.Airdrop.Tx} {n : Nat} {a : Drop}
    (ha : (Chain.Airdrop.runTxs c w txs).drop.drops.get n = some a) (hk : a.kind = .openAirdrop) (ho : a.closedAt = none)
    (hroot : hexDecode32 a.merkleRoot = .ok (t.hash c)) (hfund : t.total ≤ a.totalAmount) (hmax : t.total < 2 ^ 128)
    (htree : ∀ w x, t.Has w x → (leafBytes w x).length ≠ 64)
    (hclean : ∀ call, .call call ∈ txs → ∀ p, call.msg = .claim p → CleanClaim c t call.info p) {who : String} {x : Nat}
    (hw : t.Has who x) (hun : (Chain.Airdrop.runTxs c w txs).drop.claims.get (n, who) = none) {path : List Hash32}
    (hpath : t.Path c who x path) (env : Env) {sender : Addr} (hv : env.validAddr who = true) (hs : sender ≠ w.self)
    (hws : who ≠ w.self) :
    ∃ w', Chain.Airdrop.apply c (Chain.Airdrop.runTxs c w txs) (.call ⟨env, ⟨sender, []⟩,
        .claim (.openDrop (.id n) x (some who) (path.map (fun q => hexText q.bytes)))⟩) = .ok w' ∧
      w'.bank.bal who a.denom = (Chain.Airdrop.runTxs c w txs).bank.bal who a.denom + x := by
  obtain ⟨hself, calls, hc, hd⟩ := chain_calls c w txs
  rw [h0] at hd
  rw [hd] at ha hun
  obtain ⟨s', hx⟩ := C90_everyone_can_claim ha hk ho hroot hfund hmax htree
    (fun call h => hclean call (hc call h)) hw hun hpath env ⟨sender, []⟩ hv
  rw [← hd] at hx
  generalize path.map (fun q => hexText q.bytes) = proof at hx ⊢
  clear hmax
  obtain ⟨w', hw', _⟩ := C33_accepted_messages_are_paid c w h0 txs
    ⟨env, ⟨sender, []⟩, .claim (.openDrop (.id n) x (some who) proof)⟩ s' _
    (by rw [hself]; exact hs) (by intro d; simp) hx
  exact ⟨w', hw', paid hx hw' (by rw [hself]; exact hws)⟩

/-- Alice's 60 and bob's 40. -/
def giftTree : MerkleTree := .node (.leaf "alice" 60) (.leaf "bob" 40)

/-- Carol registers the airdrop with 50, adds 30 and again 30; dave claims for alice. -/
def giftTxs : List Chain.Airdrop.Tx := [.call Demo.reg, .call Demo.fund, .call Demo.fund, .call Demo.claimAlice]

/-- All hypotheses are met by `giftTxs`: bob, still unpaid, is paid 40 after alice was paid. -/
example : ∃ w', Chain.Airdrop.apply Demo.crypto (Chain.Airdrop.runTxs Demo.crypto dropWorld giftTxs) (.call ⟨Demo.env 20,
        ⟨"dave", []⟩, .claim (.openDrop (.id 0) 40 (some "bob") [hexText (Demo.leaf "alice" 60).bytes])⟩) = .ok w' ∧
      w'.bank.bal "bob" "uosmo" = 40 := by
  have ha : ((Chain.Airdrop.runTxs Demo.crypto dropWorld giftTxs).drop.drops.get 0) = some
      { kind := .openAirdrop, creator := "carol", denom := "uosmo", totalAmount := 110, totalClaimed := 60
        merkleRoot := Demo.root, label := some "carol/gift", createdAt := 10, closedAt := none } := by decide +kernel
  have hb : (Chain.Airdrop.runTxs Demo.crypto dropWorld giftTxs).bank.bal "bob" "uosmo" = 0 := by decide +kernel
  have := C90_everyone_is_paid (c := Demo.crypto) (t := giftTree) (w := dropWorld) rfl (txs := giftTxs) ha rfl rfl
    (by decide +kernel) (by decide) (by decide)
    (by
      rintro w x (⟨rfl, rfl⟩ | ⟨rfl, rfl⟩) <;> decide +kernel)
    (by
      intro call hc p hp
      simp only [giftTxs, List.mem_cons, Chain.Airdrop.Tx.call.injEq, List.not_mem_nil, or_false] at hc
      rcases hc with rfl | rfl | rfl | rfl
      · simp [Demo.reg] at hp
      · simp [Demo.fund] at hp
      · simp [Demo.fund] at hp
      · simp only [Demo.claimAlice, ExecMsg.claim.injEq] at hp
        subst hp
        refine ⟨by decide +kernel, ?_⟩
        intro path hpath
        cases hpath with
        | cons h1 h2 =>
          cases h2
          have e : hexDecode32 (Demo.toHex (Demo.leaf "bob" 40).bytes) = .ok (Demo.leaf "bob" 40) := by decide +kernel
          rw [e] at h1
          cases h1
          decide +kernel)
    (who := "bob") (x := 40) (.inr ⟨rfl, rfl⟩) (by decide +kernel) (.right .leaf) (Demo.env 20) (sender := "dave")
    (by decide +kernel) (by decide) (by decide)
  generalize Chain.Airdrop.runTxs Demo.crypto dropWorld giftTxs = w at this hb ⊢
  obtain ⟨w', h1, h2⟩ := this
  exact ⟨w', h1, h2.trans (congrArg (· + 40) hb)⟩

end Ibcx.Props
