import Verif.Airdrop.DigestLemmas
import Verif.Airdrop.Inv
import Verif.Props.AirdropDemo
/-!
# The signer's address (C87) and the registration signature (C88)
-/

namespace Ibcx.Props
open Ibcx Ibcx.Airdrop Ibcx.Spec

/-- The 20 bytes an address stands for: RIPEMD-160 of SHA-256 of the key. -/
def keyHash (key : Bytes) : Bytes := Digest.ripemd160 (Digest.sha256 key).bytes

/-! ### C87 -/

/-- **C87 (round trip).** For every public key and prefix the address made from the key is a valid Bech32 address and
decodes to the key's hash. -/
theorem C87_address_decodes (key : Bytes) (pre : String) :
    decodeAddress pre (Digest.pubToAddr key pre) = some (keyHash key) :=
  Digest.decode_encode pre _ (Digest.ripemd160_length _)

/-- The address of a key of two bytes, and the hash it decodes to. -/
example : decodeAddress "osmo" (Digest.pubToAddr [2, 236] "osmo") = some (keyHash [2, 236]) ∧
    (keyHash [2, 236]).length = 20 := by decide +kernel

/-- **C87 (distinct keys).** Two keys get the same address exactly when their hashes collide. -/
theorem C87_same_address_iff (key key' : Bytes) (pre : String) :
    Digest.pubToAddr key pre = Digest.pubToAddr key' pre ↔ keyHash key = keyHash key' := by
  constructor
  · intro h
    have h1 := C87_address_decodes key pre
    rw [h, C87_address_decodes key' pre] at h1
    exact (Option.some.inj h1).symm
  · intro h
    unfold Digest.pubToAddr
    unfold keyHash at h
    rw [h]

/-- Two keys with different hashes have different addresses. -/
example : keyHash [2, 236] ≠ keyHash [2, 237] ∧
    Digest.pubToAddr [2, 236] "osmo" ≠ Digest.pubToAddr [2, 237] "osmo" := by decide +kernel

private theorem mapM_mem {cs : List Char} {vs : List Nat} (h : cs.mapM alphabet.idxOf? = some vs) :
    cs.length = vs.length ∧ ∀ c ∈ cs, c ∈ alphabet := by
  induction cs generalizing vs with
  | nil => simp at h; subst h; simp
  | cons c cs ih =>
    rw [List.mapM_cons] at h
    cases hc : alphabet.idxOf? c with
    | none => rw [hc] at h; simp at h
    | some v =>
      cases hs : cs.mapM alphabet.idxOf? with
      | none => rw [hc, hs] at h; simp at h
      | some ws =>
        rw [hc, hs] at h
        simp at h
        subst h
        obtain ⟨h1, h2⟩ := ih hs
        refine ⟨by simp [h1], ?_⟩
        intro x hx
        rcases List.mem_cons.1 hx with rfl | hx
        · have : (alphabet.idxOf? x).isSome = true := by rw [hc]; rfl
          simpa using this
        · exact h2 x hx

/-- **C87 (shape).** Every signer address is the text `osmo1` and 38 characters of the Bech32 alphabet; in
particular it contains neither `/` nor `:`, the separators of the signed texts and of the leaves. -/
theorem C87_address_shape (key : Bytes) :
    (∃ rest, (Digest.pubToAddr key "osmo").toList = "osmo1".toList ++ rest ∧ rest.length = 38 ∧
      ∀ c ∈ rest, c ∈ alphabet) ∧
    '/' ∉ (Digest.pubToAddr key "osmo").toList ∧ ':' ∉ (Digest.pubToAddr key "osmo").toList := by
  have h := C87_address_decodes key "osmo"
  unfold decodeAddress at h
  dsimp only at h
  split at h
  · rename_i ht
    split at h
    · rename_i vs hm
      obtain ⟨h1, h2⟩ := mapM_mem hm
      have e : "osmo".toList ++ ['1'] = "osmo1".toList := by decide
      rw [e] at ht h1 h2
      have hd := List.take_append_drop ("osmo1".toList).length (Digest.pubToAddr key "osmo").toList
      rw [ht] at hd
      have hl : vs.length = 38 := by
        by_contra hne
        rw [if_neg (fun hh => hne hh.1)] at h
        simp at h
      have no : ∀ c, c ∉ "osmo1".toList → c ∉ alphabet → c ∉ (Digest.pubToAddr key "osmo").toList := by
        intro c hc1 hc2 hc
        rw [← hd] at hc
        rcases List.mem_append.1 hc with hc | hc
        · exact hc1 hc
        · exact hc2 (h2 c hc)
      exact ⟨⟨_, hd.symm, by rw [h1, hl], h2⟩, no '/' (by decide) (by decide), no ':' (by decide) (by decide)⟩
    · simp at h
  · simp at h

/-- An address of the chain. -/
example : (Digest.pubToAddr [2, 236] "osmo").toList.length = 43 ∧
    (Digest.pubToAddr [2, 236] "osmo").toList.take 5 = "osmo1".toList := by decide +kernel

/-- **C87 (what is stored).** With the contract's hashes and addresses and any signature check: in every reachable
state the signer of every bearer airdrop is the valid `osmo` address of the stored key, and that key signed it. -/
theorem C87_signer_is_key_address {v : Hash32 → Bytes → Bytes → Res Bool} {s : State}
    (hr : Reachable (realCrypto v) s) {n : Nat} {a : Drop} (ha : s.drops.get n = some a) {signer : Addr} {key : Bytes}
    (hk : a.kind = .bearer signer key) :
    decodeAddress "osmo" signer = some (keyHash key) ∧
      ∃ sig, v (Digest.sha256 signer.toUTF8.data.toList) sig key = .ok true := by
  have main : ∀ calls s, (∀ n a signer key, s.drops.get n = some a → a.kind = .bearer signer key →
        signer = Digest.pubToAddr key "osmo" ∧
          ∃ sig, v (Digest.sha256 (utf8 signer)) sig key = .ok true) →
      ∀ n a signer key, (run (realCrypto v) s calls).1.drops.get n = some a → a.kind = .bearer signer key →
        signer = Digest.pubToAddr key "osmo" ∧
          ∃ sig, v (Digest.sha256 (utf8 signer)) sig key = .ok true := by
    intro calls
    induction calls with
    | nil => intro s hs; exact hs
    | cons call calls ih =>
      obtain ⟨cenv, cinfo, msg⟩ := call
      intro s hs
      apply ih
      split
      · rename_i out hx
        intro n a signer key hn hk
        obtain ⟨s', ms⟩ := out
        cases execute_change.1 hx with
        | register p b new free max =>
          by_cases e : s.latest = n
          · subst e
            dsimp only at hn
            rw [KV.get_set_self] at hn
            cases hn
            cases p with
            | openDrop root denom label =>
              have := new.payload.1
              rw [hk] at this; cases this
            | bearer root denom pub sig label =>
              obtain ⟨⟨k, sb, _, _, g3, _, g5⟩, _⟩ := new.payload
              rw [hk] at g3
              cases g3
              exact ⟨rfl, sb, g5⟩
          · dsimp only at hn
            rw [KV.get_set_ne _ _ e] at hn
            exact hs n a signer key hn hk
        | fund id m b extra ht hb hc ho hf hx0 max =>
          by_cases e : m = n
          · subst e
            dsimp only at hn
            rw [KV.get_set_self] at hn
            cases hn
            exact hs m b signer key hb hk
          · dsimp only at hn
            rw [KV.get_set_ne _ _ e] at hn
            exact hs n a signer key hn hk
        | claim p m b hv ht hb ho hkk hp max hle =>
          by_cases e : m = n
          · subst e
            dsimp only at hn
            rw [KV.get_set_self] at hn
            cases hn
            exact hs m b signer key hb hk
          · dsimp only at hn
            rw [KV.get_set_ne _ _ e] at hn
            exact hs n a signer key hn hk
        | close id m b ht hb hc ho hle =>
          by_cases e : m = n
          · subst e
            dsimp only at hn
            rw [KV.get_set_self] at hn
            cases hn
            exact hs m b signer key hb hk
          · dsimp only at hn
            rw [KV.get_set_ne _ _ e] at hn
            exact hs n a signer key hn hk
      · exact hs
  obtain ⟨calls, rfl⟩ := hr
  obtain ⟨h1, h2⟩ := main calls initial (by intro n a signer key h; simp [initial] at h) n a signer key ha hk
  refine ⟨?_, h2⟩
  rw [h1]
  exact C87_address_decodes key "osmo"

/-- The key of the repository's tests (`/repo/contracts/airdrop/src/execute/mod.rs:96`). -/
def testKey : Bytes :=
  ((hexDecode "02ec18c82501c5088119251679b538e9cf8eae502956cc862c7778aa148365e886").toOption).getD []

example : testKey.length = 33 ∧ Digest.pubToAddr testKey "osmo" = "osmo1cyyzpxplxdzkeea7kwsydadg87357qnahakaks" ∧
    decodeAddress "osmo" "osmo1cyyzpxplxdzkeea7kwsydadg87357qnahakaks" = some (keyHash testKey) ∧
    (keyHash testKey).take 3 = [0xc1, 0x08, 0x20] ∧
    decodeAddress "osmo" "osmo1cyyzpxplxdzkeea7kwsydadg87357qnahakakq" = none := by decide +kernel

/-- A reachable state with a bearer airdrop of that key. -/
example : ((run (realCrypto (fun _ sig key => .ok (sig = key.take 2))) initial
      [⟨Demo.env 1, ⟨"carol", [⟨"uosmo", 70⟩]⟩, .register (.bearer
        "597f35d2e2f4f5c02e31be44695da0c3e0ce03bbb212c6cfc4ef94d7d4940bb5" "uosmo"
        "02ec18c82501c5088119251679b538e9cf8eae502956cc862c7778aa148365e886" "02ec" none)⟩]).1.drops.get 0).map (·.kind) =
    some (.bearer "osmo1cyyzpxplxdzkeea7kwsydadg87357qnahakaks" testKey) := by decide +kernel

/-! ### C88 -/

/-- **C88.** The registration signature covers nothing but the signer's own address: once a bearer registration was
accepted, anyone who saw it can, at any later time and in any state, register further bearer airdrops under the same
signer with the same key and signature, with a Merkle root, denom, amount and label of their own choice. -/
theorem C88_registration_signature_replays {c : Crypto} {s s' s1 : State} {env env' : Env} {info info' : Info}
    {root root' : String} {denom denom' : Denom} {pub sig : String} {label label' : Option String} {ms : List Msg}
    {key : Bytes} {h' : Hash32} {x : Nat}
    (h : execute c s env info (.register (.bearer root denom pub sig label)) = .ok (s', ms))
    (hkey : hexDecode pub = .ok key) (hroot : hexDecode32 root' = .ok h') (hpay : info'.funds = [⟨denom', x⟩])
    (hx : x ≠ 0) (hfree : ∀ l, label' = some l → s1.labels.get (info'.sender ++ "/" ++ l) = none)
    (hid : s1.latest + 1 < 2 ^ 64) (hv : env'.validAddr (c.addrOf key) = true) :
    ∃ s2, execute c s1 env' info' (.register (.bearer root' denom' pub sig label')) = .ok (s2, []) ∧
      s2.drops.get s1.latest = some
        { kind := .bearer (c.addrOf key) key, creator := info'.sender, denom := denom', totalAmount := x
          totalClaimed := 0, merkleRoot := root', label := label'.map (fun l => info'.sender ++ "/" ++ l)
          createdAt := env'.height, closedAt := none } := by
  cases execute_change.1 h with
  | register p a new free max =>
    obtain ⟨⟨k, sb, g1, g2, g3, g4, g5⟩, _⟩ := new.payload
    rw [hkey] at g1; cases g1
    refine ⟨_, execute_change.2 (.register _
      { kind := .bearer (c.addrOf key) key, creator := info'.sender, denom := denom', totalAmount := x
        totalClaimed := 0, merkleRoot := root', label := label'.map (fun l => info'.sender ++ "/" ++ l)
        createdAt := env'.height, closedAt := none }
      ⟨rfl, rfl, rfl, rfl, ⟨hpay, hx⟩, ⟨h', hroot⟩, ⟨key, sb, hkey, g2, rfl, hv, g5⟩, rfl, rfl, rfl⟩ ?_ hid), ?_⟩
    · intro l hl
      cases label' with
      | none => simp at hl
      | some l0 => simp at hl; subst hl; exact hfree l0 rfl
    · exact KV.get_set_self _ _ _

/-- Mallory registers an airdrop of a tree of their own under carol's signer, after carol did. -/
example : ((run Demo.crypto initial [Demo.regBearer,
      ⟨Demo.env 20, ⟨"mallory", [⟨"uatom", 1⟩]⟩, .register (.bearer (Demo.toHex (Demo.leaf "evil" 1).bytes) "uatom" "0102"
        (Demo.toHex ((Demo.crypto.sha (utf8 "osmo1signer")).bytes ++ [1, 2])) (some "official"))⟩]).1.drops.get 1).map
      (fun a => (a.kind, a.creator, a.label)) =
    some (.bearer "osmo1signer" [1, 2], "mallory", some "mallory/official") := by decide +kernel

end Ibcx.Props
