import Mathlib.NumberTheory.PrimeCounting
import Mathlib.Tactic.NormNum
import Mathlib.Tactic.Ring
import Mathlib.Tactic.FinCases
import Verif.Airdrop.Digest
import Verif.Spec.Hash
/-!
# The hashes of the model are the standard ones: lemmas

Not part of the model.
-/

namespace Ibcx.Airdrop.Digest
open Ibcx Ibcx.Spec.Hash

/-! ## Words -/

theorem W_eq : W = 2 ^ 32 := rfl

theorem rotr_word {n : Nat} (hn : n < 32) (x : Word) : rotr n x.toNat = (x.rotateRight n).toNat := by
  rw [BitVec.toNat_rotateRight, rotr, W_eq, Nat.or_mod_two_pow, Nat.mod_eq_of_lt hn]
  congr 1
  refine Nat.mod_eq_of_lt (lt_of_le_of_lt ?_ x.isLt)
  rw [Nat.shiftRight_eq_div_pow]
  exact Nat.div_le_self _ _

theorem rotl_word {n : Nat} (hn : n < 32) (x : Word) : rotl n x.toNat = (x.rotateLeft n).toNat := by
  rw [BitVec.toNat_rotateLeft, rotl, W_eq, Nat.or_mod_two_pow, Nat.mod_eq_of_lt hn]
  congr 1
  refine Nat.mod_eq_of_lt (lt_of_le_of_lt ?_ x.isLt)
  rw [Nat.shiftRight_eq_div_pow]
  exact Nat.div_le_self _ _

theorem not_word (x : Word) : not32 x.toNat = (~~~x).toNat := by
  rw [not32, ← BitVec.xor_allOnes, BitVec.toNat_xor]
  rfl

/-! ## Roots -/

theorem root_eq {e x n : Nat} (he : e ≠ 0) (h1 : n ^ e ≤ x) (h2 : x < (n + 1) ^ e) : root e x = n := by
  refine Nat.findGreatest_eq_iff.2 ⟨le_trans (Nat.le_self_pow he n) h1, fun _ => h1, fun m hm _ h => ?_⟩
  exact absurd (lt_of_lt_of_le h2 (Nat.pow_le_pow_left hm e)) (by omega)

/-- The first 64 primes. -/
def primes : List Nat :=
  [2, 3, 5, 7, 11, 13, 17, 19, 23, 29, 31, 37, 41, 43, 47, 53, 59, 61, 67, 71, 73, 79, 83, 89, 97, 101, 103, 107, 109, 113, 127,
   131, 137, 139, 149, 151, 157, 163, 167, 173, 179, 181, 191, 193, 197, 199, 211, 223, 227, 229, 233, 239, 241, 251, 257, 263,
   269, 271, 277, 281, 283, 293, 307, 311]

theorem primes_eq : ∀ t < 64, prime t = primes.getD t 0 := by
  have h : ∀ t < 64, (primes.getD t 0).Prime ∧ Nat.count Nat.Prime (primes.getD t 0) = t := by decide +kernel
  intro t ht
  obtain ⟨h1, h2⟩ := h t ht
  have := Nat.nth_count h1
  rw [h2] at this
  exact this

/-- The integer parts of the cube roots. -/
def cubeInts : List Nat := primes.map fun p => ((List.range 8).filter fun n => n ^ 3 ≤ p).length - 1

theorem shaK_eq : ∀ t < 64, Digest.shaK.getD t 0 = (Spec.Hash.shaK t).toNat := by
  have h : ∀ t < 64, (cubeInts.getD t 0 * 2 ^ 32 + Digest.shaK.getD t 0) ^ 3 ≤ primes.getD t 0 * 2 ^ 96 ∧
      primes.getD t 0 * 2 ^ 96 < (cubeInts.getD t 0 * 2 ^ 32 + Digest.shaK.getD t 0 + 1) ^ 3 ∧ Digest.shaK.getD t 0 < 2 ^ 32 := by
    decide +kernel
  intro t ht
  obtain ⟨h1, h2, h3⟩ := h t ht
  rw [Spec.Hash.shaK, primes_eq t ht, root_eq (by norm_num) h1 h2, BitVec.toNat_ofNat, Nat.add_comm, Nat.add_mul_mod_self_right,
    Nat.mod_eq_of_lt h3]

/-- The words of a state of SHA-256. -/
def shaOf (v : Fin 8 → Word) : Sha := ⟨(v 0).toNat, (v 1).toNat, (v 2).toNat, (v 3).toNat, (v 4).toNat, (v 5).toNat, (v 6).toNat, (v 7).toNat⟩

/-- The words of a state of RIPEMD-160. -/
def ripOf (v : Fin 5 → Word) : Rip := ⟨(v 0).toNat, (v 1).toNat, (v 2).toNat, (v 3).toNat, (v 4).toNat⟩

theorem shaH_eq : shaInit = shaOf shaH := by
  have h : ∀ (i : Fin 8) (n k : Nat), k < 2 ^ 32 → (n * 2 ^ 32 + k) ^ 2 ≤ primes.getD i 0 * 2 ^ 64 →
      primes.getD i 0 * 2 ^ 64 < (n * 2 ^ 32 + k + 1) ^ 2 → k = (shaH i).toNat := by
    intro i n k h3 h1 h2
    rw [shaH, primes_eq i (by omega), root_eq (by norm_num) h1 h2, BitVec.toNat_ofNat, Nat.add_comm, Nat.add_mul_mod_self_right,
      Nat.mod_eq_of_lt h3]
  unfold shaInit shaOf
  rw [← h 0 1 0x6a09e667 (by norm_num) (by decide +kernel) (by decide +kernel),
    ← h 1 1 0xbb67ae85 (by norm_num) (by decide +kernel) (by decide +kernel),
    ← h 2 2 0x3c6ef372 (by norm_num) (by decide +kernel) (by decide +kernel),
    ← h 3 2 0xa54ff53a (by norm_num) (by decide +kernel) (by decide +kernel),
    ← h 4 3 0x510e527f (by norm_num) (by decide +kernel) (by decide +kernel),
    ← h 5 3 0x9b05688c (by norm_num) (by decide +kernel) (by decide +kernel),
    ← h 6 4 0x1f83d9ab (by norm_num) (by decide +kernel) (by decide +kernel),
    ← h 7 4 0x5be0cd19 (by norm_num) (by decide +kernel) (by decide +kernel)]

/-! ## Rounds of SHA-256 -/

theorem shaRound_eq (v : Fin 8 → Word) (k w : Word) : Digest.shaRound (shaOf v) k.toNat w.toNat = shaOf (Spec.Hash.shaRound k w v) := by
  unfold Digest.shaRound shaOf Spec.Hash.shaRound bigSigma0 bigSigma1 ch maj
  simp only [rotr_word (n := 6) (by norm_num), rotr_word (n := 11) (by norm_num), rotr_word (n := 25) (by norm_num),
    rotr_word (n := 2) (by norm_num), rotr_word (n := 13) (by norm_num), rotr_word (n := 22) (by norm_num), not_word,
    ← BitVec.toNat_and, ← BitVec.toNat_xor, W_eq]
  simp only [Matrix.cons_val, BitVec.toNat_add]
  congr 1 <;> omega

theorem schedule_eq (m : Nat → Word) : ∀ (n t : Nat), 16 ≤ t →
    shaSchedule n ((List.range t).reverse.map fun i => (schedule m i).toNat) =
      (List.range (t + n)).reverse.map fun i => (schedule m i).toNat := by
  intro n
  induction n with
  | zero => intro t _; rfl
  | succ n ih =>
    intro t ht
    have hg : ∀ i < t, ((List.range t).reverse.map fun i => (schedule m i).toNat).getD i 0 = (schedule m (t - 1 - i)).toNat := by
      intro i hi
      rw [List.getD_eq_getElem _ _ (by simpa using hi)]
      simp
    have h1 : (schedule m t).toNat = ((rotr 17 (schedule m (t - 2)).toNat ^^^ rotr 19 (schedule m (t - 2)).toNat ^^^
        ((schedule m (t - 2)).toNat >>> 10)) + (schedule m (t - 7)).toNat + (rotr 7 (schedule m (t - 15)).toNat ^^^
        rotr 18 (schedule m (t - 15)).toNat ^^^ ((schedule m (t - 15)).toNat >>> 3)) + (schedule m (t - 16)).toNat) % W := by
      rw [schedule, if_neg (by omega)]
      unfold sigma0 sigma1
      simp only [rotr_word (n := 17) (by norm_num), rotr_word (n := 19) (by norm_num), rotr_word (n := 7) (by norm_num),
        rotr_word (n := 18) (by norm_num), ← BitVec.toNat_ushiftRight, ← BitVec.toNat_xor, W_eq, BitVec.toNat_add]
      omega
    rw [shaSchedule]
    rw [hg 1 (by omega), hg 14 (by omega), hg 6 (by omega), hg 15 (by omega), show t - 1 - 1 = t - 2 by omega,
      show t - 1 - 14 = t - 15 by omega, show t - 1 - 6 = t - 7 by omega, show t - 1 - 15 = t - 16 by omega, ← h1]
    have := ih (t + 1) (by omega)
    rw [List.range_succ, List.reverse_append, List.reverse_singleton, List.singleton_append, List.map_cons] at this
    rw [this, show t + 1 + n = t + (n + 1) by omega]

theorem shaRounds_eq (k w : Nat → Word) (l : List Nat) : ∀ v : Fin 8 → Word,
    shaRounds (shaOf v) (l.map fun t => (k t).toNat) (l.map fun t => (w t).toNat) =
      shaOf (l.foldl (fun v t => Spec.Hash.shaRound (k t) (w t) v) v) := by
  induction l with
  | nil => intro v; rfl
  | cons t l ih =>
    intro v
    rw [List.map_cons, List.map_cons, shaRounds, shaRound_eq, ih]
    rfl

theorem shaK_list : Digest.shaK = (List.range 64).map fun t => (Spec.Hash.shaK t).toNat := by
  refine List.ext_getElem (by rw [List.length_map, List.length_range]; decide +kernel) fun t h1 h2 => ?_
  have ht : t < 64 := by simpa using h2
  rw [← List.getD_eq_getElem _ 0 h1, shaK_eq t ht]
  simp

theorem first_words (m : Nat → Word) :
    ((List.range 16).map fun t => (m t).toNat).reverse = (List.range 16).reverse.map fun i => (schedule m i).toNat := by
  rw [← List.map_reverse]
  refine List.map_congr_left fun t ht => ?_
  rw [schedule, if_pos (List.mem_range.1 (List.mem_reverse.1 ht))]

theorem all_words (m : Nat → Word) :
    (shaSchedule 48 ((List.range 16).map fun t => (m t).toNat).reverse).reverse = (List.range 64).map fun i => (schedule m i).toNat := by
  rw [first_words, schedule_eq m 48 16 le_rfl, ← List.map_reverse, List.reverse_reverse]

theorem sha_add (v v' : Fin 8 → Word) :
    (⟨((shaOf v).a + (shaOf v').a) % W, ((shaOf v).b + (shaOf v').b) % W, ((shaOf v).c + (shaOf v').c) % W,
      ((shaOf v).d + (shaOf v').d) % W, ((shaOf v).e + (shaOf v').e) % W, ((shaOf v).f + (shaOf v').f) % W,
      ((shaOf v).g + (shaOf v').g) % W, ((shaOf v).h + (shaOf v').h) % W⟩ : Sha) = shaOf fun i => v' i + v i := by
  have h : ∀ x y : Word, (x.toNat + y.toNat) % W = (y + x).toNat := fun x y => by rw [BitVec.toNat_add, W_eq, Nat.add_comm]
  simp only [shaOf, h]

theorem shaBlock_eq (m : Nat → Word) (v : Fin 8 → Word) :
    Digest.shaBlock (shaOf v) ((List.range 16).map fun t => (m t).toNat) = shaOf (Spec.Hash.shaBlock m v) := by
  unfold Digest.shaBlock Spec.Hash.shaBlock
  rw [all_words, shaK_list, shaRounds_eq]
  exact sha_add _ _

/-! ## Words of a padded message -/

theorem byte_lt (p : List UInt8) (i : Nat) : (byte p i).toNat < 256 := (byte p i).isLt

theorem append_toNat (a b c d : BitVec 8) : (a ++ b ++ c ++ d : Word).toNat = a.toNat * 16777216 + b.toNat * 65536 + c.toNat * 256 + d.toNat := by
  have ha := a.isLt; have hb := b.isLt; have hc := c.isLt; have hd := d.isLt
  rw [BitVec.toNat_append, BitVec.toNat_append, BitVec.toNat_append]
  have h : ∀ (x y : Nat), y < 256 → (x <<< 8 ||| y) = x * 256 + y := by
    intro x y hy
    rw [Nat.shiftLeft_eq, show (2 : Nat) ^ 8 = 256 by norm_num, mul_comm, ← Nat.two_pow_add_eq_or_of_lt (i := 8) (by simpa using hy)]
  rw [h _ _ hb, h _ _ hc, h _ _ hd]
  ring

theorem byte_cons4 (a b c d : UInt8) (p : List UInt8) (i : Nat) : byte (a :: b :: c :: d :: p) (4 + i) = byte p i := by
  unfold byte
  rw [show 4 + i = i + 1 + 1 + 1 + 1 by omega]
  rfl

theorem wordsBE_eq : ∀ (n : Nat) (p : Bytes), p.length = 4 * n → wordsBE p = (List.range n).map fun i => (wordHigh p i).toNat := by
  intro n
  induction n with
  | zero => intro p h; cases List.length_eq_zero_iff.1 (by omega : p.length = 0); rfl
  | succ n ih =>
    intro p h
    match p, h with
    | a :: b :: c :: d :: r, h =>
      rw [wordsBE, ih r (by simp at h; omega), List.range_succ_eq_map, List.map_cons, List.map_map]
      refine List.cons_eq_cons.2 ⟨?_, List.map_congr_left fun i _ => ?_⟩
      · rw [wordHigh, append_toNat]
        rfl
      · simp only [Function.comp, wordHigh]
        simp only [show 4 * i.succ = 4 + 4 * i by omega, Nat.add_assoc, byte_cons4]

theorem wordsLE_eq : ∀ (n : Nat) (p : Bytes), p.length = 4 * n → wordsLE p = (List.range n).map fun i => (wordLow p i).toNat := by
  intro n
  induction n with
  | zero => intro p h; cases List.length_eq_zero_iff.1 (by omega : p.length = 0); rfl
  | succ n ih =>
    intro p h
    match p, h with
    | a :: b :: c :: d :: r, h =>
      rw [wordsLE, ih r (by simp at h; omega), List.range_succ_eq_map, List.map_cons, List.map_map]
      refine List.cons_eq_cons.2 ⟨?_, List.map_congr_left fun i _ => ?_⟩
      · rw [wordLow, append_toNat]
        rfl
      · simp only [Function.comp, wordLow]
        simp only [show 4 * i.succ = 4 + 4 * i by omega, Nat.add_assoc, byte_cons4]

theorem blocks_eq : ∀ (n s : Nat) (f : Nat → Nat),
    blocks n ((List.range (16 * n)).map fun i => f (s + i)) = (List.range n).map fun j => (List.range 16).map fun t => f (s + (16 * j + t)) := by
  intro n
  induction n with
  | zero => intro s f; rfl
  | succ n ih =>
    intro s f
    have hr : List.range (16 * (n + 1)) = List.range 16 ++ (List.range (16 * n)).map (16 + ·) := by
      rw [show 16 * (n + 1) = 16 + 16 * n by omega, List.range_add]
    rw [blocks, hr, List.map_append, List.take_left' (by simp), List.drop_left' (by simp), List.map_map, List.range_succ_eq_map (n := n),
      List.map_cons, List.map_map]
    refine List.cons_eq_cons.2 ⟨List.map_congr_left fun t _ => by rw [Nat.mul_zero, Nat.zero_add], ?_⟩
    have := ih (s + 16) f
    simp only [Function.comp_def, Nat.add_assoc] at this ⊢
    rw [this]
    refine List.map_congr_left fun j _ => List.map_congr_left fun t _ => ?_
    rw [show 16 + (16 * j + t) = 16 * j.succ + t by omega]

theorem padded_eq (bits : Nat → List UInt8) (m p : Bytes) :
    Padded bits m p ↔ p = m ++ (padZeros m.length ++ bits (8 * m.length)) := by
  unfold Padded padZeros
  constructor
  · rintro ⟨k, h1, h2, rfl⟩
    have : k = (119 - m.length % 64) % 64 := by
      by_contra h
      rcases Nat.lt_or_gt_of_ne h with h | h
      · omega
      · exact h2 _ h (by omega)
    rw [this]
    simp
  · rintro rfl
    exact ⟨(119 - m.length % 64) % 64, by omega, fun j hj => by omega, by simp⟩

theorem padded_length {bits : Nat → List UInt8} (hb : ∀ n, (bits n).length = 8) {m p : Bytes} (h : Padded bits m p) :
    p.length = 64 * (p.length / 64) := by
  obtain ⟨k, h1, _, rfl⟩ := h
  simp only [List.length_append, List.length_replicate, hb, List.length_singleton]
  omega

theorem bytesBE_eq (n : Nat) : bytesBE 8 n = highFirst n := by
  simp only [bytesBE, highFirst, List.range_succ, List.range_zero, List.nil_append, List.map_append, List.map_cons, List.map_nil,
    Nat.div_div_eq_div_mul]
  have h : ∀ x, UInt8.ofNat (x % 256) = UInt8.ofNat x := fun x => UInt8.ofNat_mod_size
  simp only [h]
  norm_num

theorem bytesLE_eq (n : Nat) : bytesLE 8 n = lowFirst n := by
  simp only [bytesLE, lowFirst, List.range_succ, List.range_zero, List.nil_append, List.map_append, List.map_cons, List.map_nil,
    Nat.div_div_eq_div_mul]
  have h : ∀ x, UInt8.ofNat (x % 256) = UInt8.ofNat x := fun x => UInt8.ofNat_mod_size
  simp only [h]
  norm_num

theorem low_length (n : Nat) : (lowFirst n).length = 8 := by simp [lowFirst]

theorem high_length (n : Nat) : (highFirst n).length = 8 := by simp [highFirst]

/-! ## RIPEMD-160 -/

theorem ripF_eq (j : Nat) (x y z : Word) : Digest.ripF j x.toNat y.toNat z.toNat = (Spec.Hash.ripF j x y z).toNat := by
  unfold Digest.ripF Spec.Hash.ripF
  split <;> simp only [not_word, ← BitVec.toNat_and, ← BitVec.toNat_or, ← BitVec.toNat_xor]

theorem ripK_left : ∀ j < 5, Digest.ripK.getD j 0 = (Spec.Hash.ripK false j).toNat := by
  intro j hj
  unfold Spec.Hash.ripK
  rw [if_neg (by simp), root_eq (n := 0x5a827999) (by norm_num) (by decide +kernel) (by decide +kernel),
    root_eq (n := 0x6ed9eba1) (by norm_num) (by decide +kernel) (by decide +kernel),
    root_eq (n := 0x8f1bbcdc) (by norm_num) (by decide +kernel) (by decide +kernel),
    root_eq (n := 0xa953fd4e) (by norm_num) (by decide +kernel) (by decide +kernel)]
  revert j
  decide +kernel

theorem ripK_right : ∀ j < 5, Digest.ripK'.getD j 0 = (Spec.Hash.ripK true j).toNat := by
  intro j hj
  unfold Spec.Hash.ripK
  rw [if_pos rfl, root_eq (n := 0x50a28be6) (by norm_num) (by decide +kernel) (by decide +kernel),
    root_eq (n := 0x5c4dd124) (by norm_num) (by decide +kernel) (by decide +kernel),
    root_eq (n := 0x6d703ef3) (by norm_num) (by decide +kernel) (by decide +kernel),
    root_eq (n := 0x7a6d76e9) (by norm_num) (by decide +kernel) (by decide +kernel)]
  revert j
  decide +kernel

theorem tables : ripR = (List.range' 0 80).map (choose false) ∧ ripR' = (List.range' 0 80).map (choose true) ∧
    ripS = (List.range' 0 80).map (fun t => shift (t / 16) (choose false t)) ∧
    ripS' = (List.range' 0 80).map (fun t => shift (t / 16) (choose true t)) := by decide +kernel

theorem small : ∀ t < 80, (choose false t < 16 ∧ shift (t / 16) (choose false t) < 32) ∧
    (choose true t < 16 ∧ shift (t / 16) (choose true t) < 32) := by decide +kernel

theorem ripLine_eq (fn : Nat → Nat) (ks block : List Nat) (w sh : Nat → Nat) : ∀ (len n : Nat) (r : Rip),
    ripLine fn ks block n ((List.range' n len).map w) ((List.range' n len).map sh) r =
      (List.range' n len).foldl (fun r t => Digest.ripStep r (fn (t / 16)) (block.getD (w t) 0) (ks.getD (t / 16) 0) (sh t)) r := by
  intro len
  induction len with
  | zero => intro n r; rfl
  | succ len ih =>
    intro n r
    rw [List.range'_succ, List.map_cons, List.map_cons, ripLine, ih, List.foldl_cons]

theorem ripStep_eq {j s : Nat} (hs : s < 32) (x k : Word) (v : Fin 5 → Word) :
    Digest.ripStep (ripOf v) j x.toNat k.toNat s =
      ripOf ![v 4, (v 0 + Spec.Hash.ripF j (v 1) (v 2) (v 3) + x + k).rotateLeft s + v 4, v 1, (v 2).rotateLeft 10, v 3] := by
  have h : ((v 0).toNat + (Spec.Hash.ripF j (v 1) (v 2) (v 3)).toNat + x.toNat + k.toNat) % W =
      (v 0 + Spec.Hash.ripF j (v 1) (v 2) (v 3) + x + k).toNat := by
    rw [BitVec.toNat_add, BitVec.toNat_add, BitVec.toNat_add, W_eq]
    omega
  unfold Digest.ripStep ripOf
  dsimp only
  rw [ripF_eq, h, rotl_word hs, rotl_word (by norm_num), W_eq, ← BitVec.toNat_add]
  simp only [Matrix.cons_val]

theorem word_getD (m : Nat → Word) {w : Nat} (hw : w < 16) : ((List.range 16).map fun t => (m t).toNat).getD w 0 = (m w).toNat := by
  rw [List.getD_eq_getElem _ _ (by simpa using hw)]
  simp

theorem fold_ripOf (f : Rip → Nat → Rip) (g : (Fin 5 → Word) → Nat → Fin 5 → Word) (l : List Nat)
    (h : ∀ t ∈ l, ∀ v, f (ripOf v) t = ripOf (g v t)) : ∀ v, l.foldl f (ripOf v) = ripOf (l.foldl g v) := by
  induction l with
  | nil => intro v; rfl
  | cons t l ih =>
    intro v
    rw [List.foldl_cons, List.foldl_cons, h t (by simp), ih fun t ht => h t (by simp [ht])]

theorem left_eq (m : Nat → Word) (v : Fin 5 → Word) :
    ripLine (fun j => j) Digest.ripK ((List.range 16).map fun t => (m t).toNat) 0 ripR ripS (ripOf v) =
      ripOf ((List.range 80).foldl (Spec.Hash.ripStep false m) v) := by
  rw [tables.1, tables.2.2.1, ripLine_eq, List.range_eq_range' (n := 80)]
  refine fold_ripOf _ _ _ (fun t ht v => ?_) v
  have ht : t < 80 := by simpa using ht
  obtain ⟨⟨h1, h2⟩, _⟩ := small t ht
  rw [word_getD m h1, ripK_left _ (by omega), ripStep_eq h2]
  rfl

theorem right_eq (m : Nat → Word) (v : Fin 5 → Word) :
    ripLine (fun j => 4 - j) Digest.ripK' ((List.range 16).map fun t => (m t).toNat) 0 ripR' ripS' (ripOf v) =
      ripOf ((List.range 80).foldl (Spec.Hash.ripStep true m) v) := by
  rw [tables.2.1, tables.2.2.2, ripLine_eq, List.range_eq_range' (n := 80)]
  refine fold_ripOf _ _ _ (fun t ht v => ?_) v
  have ht : t < 80 := by simpa using ht
  obtain ⟨_, h1, h2⟩ := small t ht
  rw [word_getD m h1, ripK_right _ (by omega), ripStep_eq h2]
  rfl

theorem rip_add (v l r : Fin 5 → Word) :
    (⟨((ripOf v).b + (ripOf l).c + (ripOf r).d) % W, ((ripOf v).c + (ripOf l).d + (ripOf r).e) % W,
      ((ripOf v).d + (ripOf l).e + (ripOf r).a) % W, ((ripOf v).e + (ripOf l).a + (ripOf r).b) % W,
      ((ripOf v).a + (ripOf l).b + (ripOf r).c) % W⟩ : Rip) = ripOf fun i => v (i + 1) + l (i + 2) + r (i + 3) := by
  have h : ∀ x y z : Word, (x.toNat + y.toNat + z.toNat) % W = (x + y + z).toNat := fun x y z => by
    rw [BitVec.toNat_add, BitVec.toNat_add, W_eq]
    omega
  simp only [ripOf, h]
  rfl

theorem ripBlock_eq (m : Nat → Word) (v : Fin 5 → Word) :
    Digest.ripBlock (ripOf v) ((List.range 16).map fun t => (m t).toNat) = ripOf (Spec.Hash.ripBlock m v) := by
  unfold Digest.ripBlock Spec.Hash.ripBlock
  rw [left_eq, right_eq]
  exact rip_add _ _ _

/-! ## Whole messages -/

theorem shaState_eq {m p : Bytes} (h : Padded highFirst m p) :
    shaState m = shaOf ((List.range (p.length / 64)).foldl (fun h j => Spec.Hash.shaBlock (fun t => wordHigh p (16 * j + t)) h) shaH) := by
  have hl := padded_length high_length h
  have hp := (padded_eq _ _ _).1 h
  unfold shaState
  rw [bytesBE_eq, ← hp, wordsBE_eq (16 * (p.length / 64)) p (by omega)]
  have hb := blocks_eq (p.length / 64) 0 fun i => (wordHigh p i).toNat
  simp only [Nat.zero_add] at hb
  dsimp only
  rw [List.length_map, List.length_range, Nat.mul_div_cancel_left _ (by norm_num), hb, shaH_eq, List.foldl_map]
  generalize List.range (p.length / 64) = l
  generalize shaH = v
  induction l generalizing v with
  | nil => rfl
  | cons j l ih => rw [List.foldl_cons, List.foldl_cons, shaBlock_eq fun t => wordHigh p (16 * j + t), ih]

theorem ripH_eq : ripInit = ripOf ripH := rfl

theorem ripState_eq {m p : Bytes} (h : Padded lowFirst m p) :
    ripState m = ripOf ((List.range (p.length / 64)).foldl (fun h j => Spec.Hash.ripBlock (fun t => wordLow p (16 * j + t)) h) ripH) := by
  have hl := padded_length low_length h
  have hp := (padded_eq _ _ _).1 h
  unfold ripState
  rw [bytesLE_eq, ← hp, wordsLE_eq (16 * (p.length / 64)) p (by omega)]
  have hb := blocks_eq (p.length / 64) 0 fun i => (wordLow p i).toNat
  simp only [Nat.zero_add] at hb
  dsimp only
  rw [List.length_map, List.length_range, Nat.mul_div_cancel_left _ (by norm_num), hb, ripH_eq, List.foldl_map]
  generalize List.range (p.length / 64) = l
  generalize ripH = v
  induction l generalizing v with
  | nil => rfl
  | cons j l ih => rw [List.foldl_cons, List.foldl_cons, ripBlock_eq fun t => wordLow p (16 * j + t), ih]

theorem wordsBE_inj : ∀ (n : Nat) (p q : Bytes), p.length = 4 * n → q.length = 4 * n → wordsBE p = wordsBE q → p = q := by
  intro n
  induction n with
  | zero =>
    intro p q h h' _
    rw [List.length_eq_zero_iff.1 (by omega : p.length = 0), List.length_eq_zero_iff.1 (by omega : q.length = 0)]
  | succ n ih =>
    intro p q h h' e
    match p, h, q, h' with
    | a :: b :: c :: d :: r, h, a' :: b' :: c' :: d' :: r', h' =>
      rw [wordsBE, wordsBE] at e
      obtain ⟨e1, e2⟩ := List.cons_eq_cons.1 e
      have h1 := a.toNat_lt; have h2 := b.toNat_lt; have h3 := c.toNat_lt; have h4 := d.toNat_lt
      have h5 := a'.toNat_lt; have h6 := b'.toNat_lt; have h7 := c'.toNat_lt; have h8 := d'.toNat_lt
      rw [ih r r' (by simp at h; omega) (by simp at h'; omega) e2, UInt8.toNat_inj.1 (by omega : a.toNat = a'.toNat),
        UInt8.toNat_inj.1 (by omega : b.toNat = b'.toNat), UInt8.toNat_inj.1 (by omega : c.toNat = c'.toNat),
        UInt8.toNat_inj.1 (by omega : d.toNat = d'.toNat)]

theorem wordsBE_bytes (x : Word) (r : Bytes) : wordsBE (bytesBE 4 x.toNat ++ r) = x.toNat :: wordsBE r := by
  have hx := x.isLt
  have h : ∀ y, (UInt8.ofNat (y % 256)).toNat = y % 256 := fun y => by simp
  simp only [bytesBE, List.nil_append, List.append_assoc, List.cons_append, wordsBE, h]
  congr 1
  omega

theorem wordsLE_inj : ∀ (n : Nat) (p q : Bytes), p.length = 4 * n → q.length = 4 * n → wordsLE p = wordsLE q → p = q := by
  intro n
  induction n with
  | zero =>
    intro p q h h' _
    rw [List.length_eq_zero_iff.1 (by omega : p.length = 0), List.length_eq_zero_iff.1 (by omega : q.length = 0)]
  | succ n ih =>
    intro p q h h' e
    match p, h, q, h' with
    | a :: b :: c :: d :: r, h, a' :: b' :: c' :: d' :: r', h' =>
      rw [wordsLE, wordsLE] at e
      obtain ⟨e1, e2⟩ := List.cons_eq_cons.1 e
      have h1 := a.toNat_lt; have h2 := b.toNat_lt; have h3 := c.toNat_lt; have h4 := d.toNat_lt
      have h5 := a'.toNat_lt; have h6 := b'.toNat_lt; have h7 := c'.toNat_lt; have h8 := d'.toNat_lt
      rw [ih r r' (by simp at h; omega) (by simp at h'; omega) e2, UInt8.toNat_inj.1 (by omega : a.toNat = a'.toNat),
        UInt8.toNat_inj.1 (by omega : b.toNat = b'.toNat), UInt8.toNat_inj.1 (by omega : c.toNat = c'.toNat),
        UInt8.toNat_inj.1 (by omega : d.toNat = d'.toNat)]

theorem wordsLE_bytes (x : Word) (r : Bytes) : wordsLE (bytesLE 4 x.toNat ++ r) = x.toNat :: wordsLE r := by
  have hx := x.isLt
  have h : ∀ y, (UInt8.ofNat (y % 256)).toNat = y % 256 := fun y => by simp
  simp only [bytesLE, List.nil_append, List.append_assoc, List.cons_append, wordsLE, h]
  congr 1
  omega

theorem words_eq_sha {d : Bytes} {v : Fin 8 → Word} (h : d.length = 32) : (∀ i : Fin 8, wordHigh d i = v i) ↔ d = shaBytes (shaOf v) := by
  have hw : wordsBE (shaBytes (shaOf v)) = (List.range 8).map fun i => (v (Fin.ofNat 8 i)).toNat := by
    simp only [shaBytes, shaOf, List.append_assoc, wordsBE_bytes]
    rw [← List.append_nil (bytesBE 4 (v 7).toNat), wordsBE_bytes]
    rfl
  have hd := wordsBE_eq 8 d h
  constructor
  · intro e
    refine wordsBE_inj 8 _ _ h (by simp [shaBytes, bytesBE_length]) ?_
    rw [hw, hd]
    refine List.map_congr_left fun i hi => ?_
    have hi : i < 8 := List.mem_range.1 hi
    rw [← e]
    simp [Nat.mod_eq_of_lt hi]
  · rintro rfl i
    rw [hd] at hw
    have := List.map_inj_left.1 hw i (List.mem_range.2 i.isLt)
    simpa using BitVec.eq_of_toNat_eq this

theorem words_eq_rip {d : Bytes} {v : Fin 5 → Word} (h : d.length = 20) : (∀ i : Fin 5, wordLow d i = v i) ↔
    d = bytesLE 4 (ripOf v).a ++ bytesLE 4 (ripOf v).b ++ bytesLE 4 (ripOf v).c ++ bytesLE 4 (ripOf v).d ++ bytesLE 4 (ripOf v).e := by
  have hw : wordsLE (bytesLE 4 (ripOf v).a ++ bytesLE 4 (ripOf v).b ++ bytesLE 4 (ripOf v).c ++ bytesLE 4 (ripOf v).d ++
      bytesLE 4 (ripOf v).e) = (List.range 5).map fun i => (v (Fin.ofNat 5 i)).toNat := by
    simp only [ripOf, List.append_assoc, wordsLE_bytes]
    rw [← List.append_nil (bytesLE 4 (v 4).toNat), wordsLE_bytes]
    rfl
  have hd := wordsLE_eq 5 d h
  constructor
  · intro e
    refine wordsLE_inj 5 _ _ h (by simp [bytesLE_length]) ?_
    rw [hw, hd]
    refine List.map_congr_left fun i hi => ?_
    have hi : i < 5 := List.mem_range.1 hi
    rw [← e]
    simp [Nat.mod_eq_of_lt hi]
  · rintro rfl i
    rw [hd] at hw
    have := List.map_inj_left.1 hw i (List.mem_range.2 i.isLt)
    simpa using BitVec.eq_of_toNat_eq this

end Ibcx.Airdrop.Digest
