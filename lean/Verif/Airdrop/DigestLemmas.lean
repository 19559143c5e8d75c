import Mathlib.Tactic.Ring
import Mathlib.Data.List.Induction
import Verif.Airdrop.Digest
import Verif.Spec.Address
/-!
# Lemmas about Bech32

Not part of the model.
-/

namespace Ibcx.Airdrop.Digest
open Ibcx Ibcx.Spec

/-- The generator part of a checksum step. -/
private def gen (t : Nat) : Nat :=
  (if t.testBit 0 then 0x3b6a57b2 else 0) ^^^ ((if t.testBit 1 then 0x26508e6d else 0) ^^^
    ((if t.testBit 2 then 0x1ea119fa else 0) ^^^ ((if t.testBit 3 then 0x3d4233dd else 0) ^^^
      (if t.testBit 4 then 0x2a1462b3 else 0))))

private theorem if_xor (b : Bool) (c g : Nat) : (if b then c ^^^ g else c) = c ^^^ (if b then g else 0) := by
  cases b <;> simp

private theorem step_eq (chk v : Nat) :
    polymodStep chk v = (((chk &&& 0x1ffffff) <<< 5) ^^^ v) ^^^ gen (chk >>> 25) := by
  unfold polymodStep gen
  simp only [if_xor]
  simp only [Nat.xor_assoc]

private theorem step_value (chk v : Nat) : polymodStep chk v = polymodStep chk 0 ^^^ v := by
  rw [step_eq, step_eq, Nat.xor_zero, Nat.xor_assoc, Nat.xor_comm v, ← Nat.xor_assoc]

private theorem pick_xor (a b : Bool) (g : Nat) :
    (if (a ^^ b) then g else 0) = (if a then g else 0) ^^^ (if b then g else 0) := by
  cases a <;> cases b <;> simp

private theorem swap4 (a b c d : Nat) : (a ^^^ b) ^^^ (c ^^^ d) = (a ^^^ c) ^^^ (b ^^^ d) := by
  rw [Nat.xor_assoc, Nat.xor_assoc, ← Nat.xor_assoc b, Nat.xor_comm b, Nat.xor_assoc c]

private theorem gen_xor (a b : Nat) : gen (a ^^^ b) = gen a ^^^ gen b := by
  unfold gen
  simp only [Nat.testBit_xor, pick_xor]
  simp only [swap4]

private theorem step_xor (a b : Nat) : polymodStep (a ^^^ b) 0 = polymodStep a 0 ^^^ polymodStep b 0 := by
  simp only [step_eq, Nat.xor_zero, Nat.and_xor_distrib_right, Nat.shiftLeft_xor_distrib, Nat.shiftRight_xor_distrib,
    gen_xor, swap4]

private theorem gen_lt (t : Nat) : gen t < 2 ^ 30 := by
  unfold gen
  refine Nat.xor_lt_two_pow ?_ (Nat.xor_lt_two_pow ?_ (Nat.xor_lt_two_pow ?_ (Nat.xor_lt_two_pow ?_ ?_))) <;>
    split <;> decide

private theorem mask_eq (x : Nat) : x &&& 0x1ffffff = x % 2 ^ 25 := Nat.and_two_pow_sub_one_eq_mod x 25

private theorem step_lt (chk v : Nat) (hv : v < 2 ^ 30) : polymodStep chk v < 2 ^ 30 := by
  rw [step_eq, mask_eq, Nat.shiftLeft_eq]
  refine Nat.xor_lt_two_pow (Nat.xor_lt_two_pow ?_ hv) (gen_lt _)
  have := Nat.mod_lt chk (show 0 < 2 ^ 25 by decide)
  omega

private theorem step_small (x d : Nat) (hx : x < 2 ^ 25) (hd : d < 32) : polymodStep x 0 ^^^ d = 32 * x + d := by
  have h1 : x >>> 25 = 0 := by rw [Nat.shiftRight_eq_div_pow]; exact Nat.div_eq_of_lt hx
  rw [step_eq, h1, mask_eq, Nat.mod_eq_of_lt hx, Nat.xor_zero, show gen 0 = 0 by decide, Nat.xor_zero,
    Nat.shiftLeft_eq]
  have h2 : 32 * x + d = 2 ^ 5 * x ||| d := Nat.two_pow_add_eq_or_of_lt (i := 5) hd x
  rw [h2, Nat.mul_comm]
  apply Nat.eq_of_testBit_eq
  intro i
  rw [Nat.testBit_xor, Nat.testBit_or]
  by_cases hi : i < 5
  · rw [Nat.testBit_two_pow_mul]; simp [Nat.not_le.2 hi]
  · have : d.testBit i = false := Nat.testBit_lt_two_pow (Nat.lt_of_lt_of_le hd
      (show 32 ≤ 2 ^ i from by
        calc 32 = 2 ^ 5 := rfl
          _ ≤ 2 ^ i := Nat.pow_le_pow_right (by decide) (by omega)))
    rw [this]; simp

private theorem number32_snoc (ds : List Nat) (d : Nat) : number32 (ds ++ [d]) = 32 * number32 ds + d := by
  simp [number32, List.foldl_append]

private theorem number32_lt (ds : List Nat) (h : ∀ d ∈ ds, d < 32) : number32 ds < 32 ^ ds.length := by
  induction ds using List.reverseRecOn with
  | nil => simp [number32]
  | append_singleton ds d ih =>
    have h1 := ih (fun x hx => h x (by simp [hx]))
    have h2 := h d (by simp)
    rw [number32_snoc, List.length_append, List.length_singleton, Nat.pow_succ]
    omega

/-- Appending digits changes the checksum by their number. -/
private theorem fold_digits (s : Nat) (ds : List Nat) (h : ∀ d ∈ ds, d < 32) (hl : ds.length ≤ 6) :
    ds.foldl polymodStep s = (List.replicate ds.length 0).foldl polymodStep s ^^^ number32 ds := by
  induction ds using List.reverseRecOn with
  | nil => simp [number32]
  | append_singleton ds d ih =>
    simp only [List.length_append, List.length_singleton] at hl
    have h1 := ih (fun x hx => h x (by simp [hx])) (by omega)
    have hd := h d (by simp)
    have hs := number32_lt ds (fun x hx => h x (by simp [hx]))
    have hlt : number32 ds < 2 ^ 25 := by
      refine Nat.lt_of_lt_of_le hs ?_
      calc 32 ^ ds.length ≤ 32 ^ 5 := Nat.pow_le_pow_right (by decide) (by omega)
        _ = 2 ^ 25 := by decide
    have e : List.replicate (ds ++ [d]).length 0 = List.replicate ds.length 0 ++ [0] := by
      rw [List.length_append, List.length_singleton, List.replicate_succ']
    rw [e, List.foldl_append, List.foldl_append, h1]
    simp only [List.foldl_cons, List.foldl_nil]
    rw [step_value, step_xor, Nat.xor_assoc, step_small _ _ hlt hd, number32_snoc]

theorem base32_digits (n x : Nat) : ∀ d ∈ base32 n x, d < 32 := by
  induction n generalizing x with
  | zero => simp [base32]
  | succ n ih =>
    intro d hd
    rw [base32, List.mem_append, List.mem_singleton] at hd
    rcases hd with hd | rfl
    · exact ih _ d hd
    · exact Nat.mod_lt _ (by decide)

theorem base32_length (n x : Nat) : (base32 n x).length = n := by
  induction n generalizing x with
  | zero => rfl
  | succ n ih => simp [base32, ih]

theorem number32_base32 (n x : Nat) : number32 (base32 n x) = x % 32 ^ n := by
  induction n generalizing x with
  | zero => simp [base32, number32, Nat.mod_one]
  | succ n ih =>
    rw [base32, number32_snoc, ih, Nat.pow_succ, Nat.mul_comm (32 ^ n) 32, Nat.mod_mul, Nat.add_comm]

private theorem fold_lt (s : Nat) (vs : List Nat) (hs : s < 2 ^ 30) (h : ∀ v ∈ vs, v < 2 ^ 30) :
    vs.foldl polymodStep s < 2 ^ 30 := by
  induction vs generalizing s with
  | nil => exact hs
  | cons v vs ih => exact ih _ (step_lt s v (h v (by simp))) (fun x hx => h x (by simp [hx]))

/-- The checksum makes the polynomial one. -/
theorem checksum_fold (hrp : String) (data : List Nat) :
    (hrpExpand hrp ++ data ++ bech32Checksum hrp data).foldl polymodStep 1 = 1 := by
  have hz : (hrpExpand hrp ++ data ++ [0, 0, 0, 0, 0, 0]).foldl polymodStep 1 =
      (List.replicate 6 0).foldl polymodStep ((hrpExpand hrp ++ data).foldl polymodStep 1) := by
    rw [List.foldl_append]; rfl
  have hz30 : (hrpExpand hrp ++ data ++ [0, 0, 0, 0, 0, 0]).foldl polymodStep 1 < 2 ^ 30 := by
    have e : hrpExpand hrp ++ data ++ [0, 0, 0, 0, 0, 0] = (hrpExpand hrp ++ data ++ [0, 0, 0, 0, 0]) ++ [0] := by simp
    rw [e, List.foldl_append]
    exact step_lt _ 0 (by decide)
  rw [List.foldl_append, bech32Checksum, fold_digits _ _ (base32_digits _ _) (by rw [base32_length])]
  rw [base32_length, number32_base32, ← hz]
  generalize (hrpExpand hrp ++ data ++ [0, 0, 0, 0, 0, 0]).foldl polymodStep 1 = z at hz30
  have h1 : z ^^^ 1 < 2 ^ 30 := Nat.xor_lt_two_pow hz30 (by decide)
  have e : 32 ^ 6 = 2 ^ 30 := by decide
  rw [e, Nat.mod_eq_of_lt h1, ← Nat.xor_assoc, Nat.xor_self, Nat.zero_xor]

/-- The model's checksum step is the reference's. -/
theorem polymod_eq (vs : List Nat) : polymod vs = vs.foldl polymodStep 1 := by
  unfold polymod
  congr 1
  funext chk v
  simp only [List.foldl_cons, List.foldl_nil]
  have hb : ∀ i, ((chk / 2 ^ 25) / 2 ^ i % 2 = 1) = ((chk >>> 25).testBit i = true) := by
    intro i
    rw [Nat.testBit_eq_decide_div_mod_eq, Nat.shiftRight_eq_div_pow]
    simp
  have hm : chk % 2 ^ 25 * 32 = (chk &&& 0x1ffffff) <<< 5 := by rw [mask_eq, Nat.shiftLeft_eq]
  unfold polymodStep
  simp only [hb, hm]

theorem hrpExpand_eq (pre : String) : hrpExpand pre = expand pre := by
  simp [hrpExpand, expand]

theorem alphabet_char : ∀ x < 32, alphabet.idxOf? (bech32Char x) = some x := by decide +kernel

theorem mapM_chars (ds : List Nat) (h : ∀ d ∈ ds, d < 32) :
    (ds.map bech32Char).mapM alphabet.idxOf? = some ds := by
  induction ds with
  | nil => rfl
  | cons d ds ih =>
    rw [List.map_cons, List.mapM_cons, alphabet_char d (h d (by simp)), ih (fun x hx => h x (by simp [hx]))]
    rfl

theorem ofBytesBE_snoc (bs : Bytes) (b : UInt8) : ofBytesBE (bs ++ [b]) = 256 * ofBytesBE bs + b.toNat := by
  simp [ofBytesBE, List.foldl_append]

theorem ofBytesBE_lt (bs : Bytes) : ofBytesBE bs < 256 ^ bs.length := by
  induction bs using List.reverseRecOn with
  | nil => simp [ofBytesBE]
  | append_singleton bs b ih =>
    rw [ofBytesBE_snoc, List.length_append, List.length_singleton, Nat.pow_succ]
    have : b.toNat < 256 := b.toNat_lt
    omega

theorem bytesOf_snoc (n x : Nat) : bytesOf (n + 1) x = bytesOf n (x / 256) ++ [UInt8.ofNat x] := by
  unfold bytesOf
  rw [List.range_succ, List.map_append]
  congr 1
  · apply List.map_congr_left
    intro i hi
    rw [List.mem_range] at hi
    have e : n + 1 - 1 - i = (n - 1 - i) + 1 := by omega
    rw [e, Nat.pow_succ, Nat.mul_comm, Nat.div_div_eq_div_mul]
  · simp

theorem bytesOf_ofBytesBE (bs : Bytes) : bytesOf bs.length (ofBytesBE bs) = bs := by
  induction bs using List.reverseRecOn with
  | nil => rfl
  | append_singleton bs b ih =>
    have hb : b.toNat < 256 := b.toNat_lt
    rw [List.length_append, List.length_singleton, bytesOf_snoc, ofBytesBE_snoc]
    have e1 : (256 * ofBytesBE bs + b.toNat) / 256 = ofBytesBE bs := by omega
    rw [e1, ih]
    congr 2
    apply UInt8.toNat_inj.1
    rw [UInt8.toNat_ofNat']
    omega

/-- Decoding an encoded hash of 20 bytes gives it back. -/
theorem decode_encode (pre : String) (bs : Bytes) (h : bs.length = 20) :
    decodeAddress pre (bech32Encode pre (toBase32 bs)) = some bs := by
  have e1 : (bech32Encode pre (toBase32 bs)).toList =
      (pre.toList ++ ['1']) ++ (toBase32 bs ++ bech32Checksum pre (toBase32 bs)).map bech32Char := by
    unfold bech32Encode
    simp only [String.toList_append, String.toList_ofList]
    congr 1
  have hd : ∀ d ∈ toBase32 bs ++ bech32Checksum pre (toBase32 bs), d < 32 := by
    intro d hd
    rcases List.mem_append.1 hd with hd | hd
    · exact base32_digits _ _ d hd
    · exact base32_digits _ _ d hd
  have hl : (toBase32 bs ++ bech32Checksum pre (toBase32 bs)).length = 38 := by
    rw [List.length_append, toBase32, bech32Checksum, base32_length, base32_length]
  unfold decodeAddress
  simp only [e1, List.take_left, List.drop_left, if_true]
  rw [mapM_chars _ hd]
  dsimp only
  rw [polymod_eq, ← hrpExpand_eq, ← List.append_assoc, checksum_fold, if_pos ⟨hl, rfl⟩]
  have e2 : (toBase32 bs ++ bech32Checksum pre (toBase32 bs)).take 32 = toBase32 bs := by
    have : (toBase32 bs).length = 32 := base32_length _ _
    rw [← this, List.take_left]
  rw [e2, toBase32, number32_base32]
  have h1 := ofBytesBE_lt bs
  rw [h] at h1
  have e3 : (32 : Nat) ^ 32 = 256 ^ 20 := by decide
  rw [e3, Nat.mod_eq_of_lt h1]
  have := bytesOf_ofBytesBE bs
  rw [h] at this
  rw [this]

end Ibcx.Airdrop.Digest
