import Verif.Airdrop.HashLemmas
import Verif.Props.Address
/-!
# The hashes of the airdrop contract are SHA-256 and RIPEMD-160 (C110)
-/

namespace Ibcx.Props
open Ibcx Ibcx.Airdrop Ibcx.Spec Ibcx.Spec.Hash

/-- **C110 (SHA-256).** For every message the digest is the one value the standard gives. -/
theorem C110_sha256 (m d : Bytes) : IsSha256 m d ↔ d = (Digest.sha256 m).bytes := by
  have key : ∀ p, Padded highFirst m p → (Digest.sha256 m).bytes = Digest.shaBytes (Digest.shaOf
      ((List.range (p.length / 64)).foldl (fun h j => shaBlock (fun t => wordHigh p (16 * j + t)) h) shaH)) := by
    intro p hp
    rw [← Digest.shaState_eq hp]
    rfl
  constructor
  · rintro ⟨p, hp, hl, hw⟩
    rw [key p hp]
    exact (Digest.words_eq_sha hl).1 hw
  · rintro rfl
    refine ⟨_, (Digest.padded_eq _ _ _).2 rfl, (Digest.sha256 m).2, ?_⟩
    exact (Digest.words_eq_sha (Digest.sha256 m).2).2 (key _ ((Digest.padded_eq _ _ _).2 rfl))

/-- The digest of `abc` in the standard. -/
example : IsSha256 [97, 98, 99] [0xba, 0x78, 0x16, 0xbf, 0x8f, 0x01, 0xcf, 0xea, 0x41, 0x41, 0x40, 0xde, 0x5d, 0xae, 0x22, 0x23,
    0xb0, 0x03, 0x61, 0xa3, 0x96, 0x17, 0x7a, 0x9c, 0xb4, 0x10, 0xff, 0x61, 0xf2, 0x00, 0x15, 0xad] :=
  (C110_sha256 _ _).2 (by decide +kernel)

/-- **C110 (RIPEMD-160).** The same for the second hash. -/
theorem C110_ripemd160 (m d : Bytes) : IsRipemd160 m d ↔ d = Digest.ripemd160 m := by
  have key : ∀ p, Padded lowFirst m p → ∀ v, v = (List.range (p.length / 64)).foldl
      (fun h j => ripBlock (fun t => wordLow p (16 * j + t)) h) ripH → Digest.ripemd160 m =
      Digest.bytesLE 4 (Digest.ripOf v).a ++ Digest.bytesLE 4 (Digest.ripOf v).b ++ Digest.bytesLE 4 (Digest.ripOf v).c ++
        Digest.bytesLE 4 (Digest.ripOf v).d ++ Digest.bytesLE 4 (Digest.ripOf v).e := by
    rintro p hp v rfl
    unfold Digest.ripemd160
    rw [Digest.ripState_eq hp]
  constructor
  · rintro ⟨p, hp, hl, hw⟩
    rw [key p hp _ rfl]
    exact (Digest.words_eq_rip hl).1 hw
  · rintro rfl
    refine ⟨_, (Digest.padded_eq _ _ _).2 rfl, Digest.ripemd160_length m, ?_⟩
    exact (Digest.words_eq_rip (Digest.ripemd160_length m)).2 (key _ ((Digest.padded_eq _ _ _).2 rfl) _ rfl)

/-- The digest of `abc` in the paper. -/
example : IsRipemd160 [97, 98, 99] [0x8e, 0xb2, 0x08, 0xf7, 0xe0, 0x5d, 0x98, 0x7a, 0x9b, 0x04, 0x4a, 0x8e, 0x98, 0xc6, 0xb0, 0x87,
    0xf1, 0x5a, 0x0b, 0xfc] := (C110_ripemd160 _ _).2 (by decide +kernel)

/-- **C110 (addresses).** The address of a key decodes to RIPEMD-160 of SHA-256 of the key, and to nothing else. -/
theorem C110_address (key d h : Bytes) (pre : String) (hd : IsSha256 key d) :
    decodeAddress pre (Digest.pubToAddr key pre) = some h ↔ IsRipemd160 d h := by
  rw [C87_address_decodes, C110_ripemd160, (C110_sha256 _ _).1 hd, Option.some.injEq]
  exact eq_comm

/-- A key with its hashes. -/
example : ∃ d h, IsSha256 [2, 236] d ∧ IsRipemd160 d h ∧ decodeAddress "osmo" (Digest.pubToAddr [2, 236] "osmo") = some h :=
  ⟨_, _, (C110_sha256 _ _).2 rfl, (C110_ripemd160 _ _).2 rfl, C87_address_decodes _ _⟩

end Ibcx.Props
