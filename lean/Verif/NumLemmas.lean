import Verif.KV
import Mathlib.Tactic.Ring
import Mathlib.Tactic.Linarith
import Mathlib.Tactic.NormNum
import Mathlib.Data.List.Forall2
/-!
# Lemmas about results and numbers

Not part of the model: facts about `Verif/Num.lean` used by the proofs.
-/

namespace Ibcx

variable {α β : Type}

@[simp] theorem bind_eq_ok {x : Res α} {f : α → Res β} {b : β} :
    (x >>= f) = .ok b ↔ ∃ a, x = .ok a ∧ f a = .ok b := by
  cases x with
  | error e => simp [bind, Except.bind]
  | ok a => simp [bind, Except.bind]

@[simp] theorem ok_bind (a : α) (f : α → Res β) : ((.ok a : Res α) >>= f) = f a := rfl
@[simp] theorem error_bind (e : Err) (f : α → Res β) :
    ((.error e : Res α) >>= f) = .error e := rfl

@[simp] theorem require_eq_ok {c : Prop} [Decidable c] {e : Err} {u : Unit} :
    require c e = .ok u ↔ c := by
  unfold require; split <;> simp_all

theorem require_true {c : Prop} [Decidable c] {e : Err} (h : c) : require c e = .ok () := by
  simp [h]

theorem require_false {c : Prop} [Decidable c] {e : Err} (h : ¬ c) : require c e = .error e := by
  simp [require, h]

theorem res_cases (x : Res α) : (∃ a, x = .ok a) ∨ (∃ e, x = .error e) := by
  cases x <;> simp

theorem not_ok_of_error {x : Res α} {e : Err} (h : x = .error e) : ∀ a, x ≠ .ok a := by
  simp [h]

@[simp] theorem chk_eq_ok {n m : Nat} : chk n = .ok m ↔ n < U128 ∧ m = n := by
  unfold chk; split <;> grind

@[simp] theorem add_eq_ok {a b c : Nat} : add a b = .ok c ↔ a + b < U128 ∧ c = a + b := by
  simp [add]

@[simp] theorem sub_eq_ok {a b c : Nat} : sub a b = .ok c ↔ b ≤ a ∧ c = a - b := by
  unfold sub; split <;> grind

@[simp] theorem add64_eq_ok {a b c : Nat} : add64 a b = .ok c ↔ a + b < 2 ^ 64 ∧ c = a + b := by
  unfold add64; split <;> grind

@[simp] theorem mulInt_eq_ok {a b c : Nat} :
    mulInt a b = .ok c ↔ a * b / ONE < U128 ∧ c = a * b / ONE := by
  simp [mulInt]

@[simp] theorem decMul_eq_ok {a b c : Nat} :
    decMul a b = .ok c ↔ a * b / ONE < U128 ∧ c = a * b / ONE := by
  simp [decMul]

@[simp] theorem ratio_eq_ok {a b c : Nat} :
    ratio a b = .ok c ↔ b ≠ 0 ∧ a * ONE / b < U128 ∧ c = a * ONE / b := by
  unfold ratio; split <;> simp_all

theorem ONE_pos : 0 < ONE := by norm_num [ONE]

@[simp] theorem validate_eq_ok {env : Env} {a b : Addr} :
    validate env a = .ok b ↔ env.validAddr a = true ∧ b = a := by
  unfold validate; split <;> grind

@[simp] theorem validateOpt_eq_ok {env : Env} {a b : Option Addr} :
    validateOpt env a = .ok b ↔ (∀ x, a = some x → env.validAddr x = true) ∧ b = a := by
  cases a <;> simp [validateOpt] <;> grind

@[simp] theorem unwrapAddr_eq_ok {env : Env} {a : Option Addr} {f b : Addr} :
    unwrapAddr env a f = .ok b ↔ (∀ x, a = some x → env.validAddr x = true) ∧ b = a.getD f := by
  simp [unwrapAddr]; grind

@[simp] theorem mustPay_eq_ok {info : Info} {d : Denom} {n : Nat} :
    mustPay info d = .ok n ↔ info.funds = [⟨d, n⟩] ∧ n ≠ 0 := by
  unfold mustPay
  split
  · rename_i c hc
    rw [hc]
    obtain ⟨cd, ca⟩ := c
    by_cases h0 : ca = 0 <;> by_cases hd : cd = d <;> simp_all <;> grind
  · rename_i h
    simp
    intro h1
    exact absurd h1 (h _)

/-! ### mapM over `Except` -/

theorem mapM_eq_ok {f : α → Res β} {l : List α} {r : List β} :
    l.mapM f = .ok r ↔ List.Forall₂ (fun a b => f a = .ok b) l r := by
  induction l generalizing r with
  | nil => simp [pure, Except.pure, List.forall₂_nil_left_iff]
  | cons a l ih =>
    simp only [List.mapM_cons, bind_eq_ok, ih]
    constructor
    · rintro ⟨b, hb, bs, hbs, h⟩
      cases h
      exact .cons hb hbs
    · rintro (_ | ⟨hb, hbs⟩)
      exact ⟨_, hb, _, hbs, rfl⟩

/-- `mapM` of a function that succeeds exactly under a condition with a known value. -/
theorem mapM_eq_ok_map {f : α → Res β} {P : α → Prop} {g : α → β}
    (hf : ∀ a b, f a = .ok b ↔ P a ∧ b = g a) {l : List α} {r : List β} :
    l.mapM f = .ok r ↔ (∀ a ∈ l, P a) ∧ r = l.map g := by
  rw [mapM_eq_ok]
  induction l generalizing r with
  | nil => simp [List.forall₂_nil_left_iff]
  | cons a l ih =>
    constructor
    · rintro (_ | ⟨hb, hbs⟩)
      have := (hf _ _).1 hb
      have := (ih).1 hbs
      grind
    · rintro ⟨h, rfl⟩
      simp only [List.map_cons]
      refine .cons ((hf _ _).2 ⟨h a (by simp), rfl⟩) (ih.2 ⟨fun x hx => h x (by simp [hx]), rfl⟩)

/-! ### checked_pow -/

/-- The fuel of `powLoop` never matters once it is at least the exponent (and positive). -/
theorem powLoop_fuel (f k x y n : Nat) (hf : 0 < f) (hn : n ≤ f) :
    powLoop (f + k) x y n = powLoop f x y n := by
  induction f generalizing x y n with
  | zero => omega
  | succ f ih =>
    rw [Nat.add_right_comm]
    simp only [powLoop]
    split
    · rfl
    · rename_i h1
      have : 0 < f := by omega
      split
      · congr 1; funext x2; exact ih _ _ _ this (by omega)
      · congr 1; funext y2; congr 1; funext x2; exact ih _ _ _ this (by omega)

/-- `powLoop` never runs out of fuel when started at the exponent. -/
theorem powLoop_ne_panic (f x y n : Nat) (hf : 0 < f) (hn : n ≤ f) :
    powLoop f x y n ≠ .error .panic := by
  induction f generalizing x y n with
  | zero => omega
  | succ f ih =>
    simp only [powLoop]
    have hd : ∀ a b, decMul a b ≠ .error .panic := by
      intro a b; unfold decMul chk; split <;> simp
    have hb : ∀ {α β} (x : Res α) (g : α → Res β), x ≠ .error .panic → (∀ a, g a ≠ .error .panic) →
        (x >>= g) ≠ .error .panic := by
      intro α β x g hx hg
      cases x with
      | error e => simpa [bind, Except.bind] using hx
      | ok a => exact hg a
    split
    · exact hd _ _
    · rename_i h1
      have : 0 < f := by omega
      split
      · exact hb _ _ (hd _ _) fun _ => ih _ _ _ this (by omega)
      · exact hb _ _ (hd _ _) fun _ => hb _ _ (hd _ _) fun _ => ih _ _ _ this (by omega)

private theorem mul_lower {x y a b : Nat} (hx : ONE + a ≤ x) (hy : ONE + b ≤ y) :
    ONE + a + b ≤ x * y / ONE := by
  rw [Nat.le_div_iff_mul_le ONE_pos]
  calc (ONE + a + b) * ONE ≤ (ONE + a) * (ONE + b) := by
        have : (ONE + a) * (ONE + b) = (ONE + a + b) * ONE + a * b := by ring
        omega
    _ ≤ x * y := Nat.mul_le_mul hx hy

theorem powLoop_lower {f x y n p a b : Nat} (hn : 0 < n)
    (hx : ONE + a ≤ x) (hy : ONE + b ≤ y) (h : powLoop f x y n = .ok p) :
    ONE + n * a + b ≤ p := by
  induction f generalizing x y n a b with
  | zero => simp [powLoop] at h
  | succ f ih =>
    simp only [powLoop] at h
    split at h
    · rename_i h1
      have : n = 1 := by omega
      subst this
      simp at h
      have := mul_lower hx hy
      omega
    · split at h
      · rename_i h1 h2
        simp at h
        obtain ⟨_, h⟩ := h
        have hm := mul_lower hx hx
        have := ih (a := 2 * a) (by omega) (by omega) hy h
        have e : n / 2 * (2 * a) = n * a := by
          rw [← Nat.mul_assoc, Nat.div_mul_cancel (Nat.dvd_of_mod_eq_zero h2)]
        omega
      · rename_i h1 h2
        simp at h
        obtain ⟨_, _, h⟩ := h
        have hm := mul_lower hx hx
        have hm2 := mul_lower hx hy
        have := ih (a := 2 * a) (b := a + b) (by omega) (by omega) (by omega) h
        have e : (n - 1) / 2 * (2 * a) + a = n * a := by
          have : (n - 1) / 2 * 2 = n - 1 := Nat.div_mul_cancel (by omega)
          rw [← Nat.mul_assoc, this]
          obtain ⟨m, rfl⟩ : ∃ m, n = m + 1 := ⟨n - 1, by omega⟩
          simp [Nat.add_mul]
        omega

/-- Bernoulli for the truncating power: `(1+a)^n ≥ 1 + n a`, rounding included. -/
theorem checkedPow_lower {a n p : Nat} (h : checkedPow (ONE + a) n = .ok p) :
    ONE + n * a ≤ p := by
  unfold checkedPow at h
  split at h
  · simp_all
  · have := powLoop_lower (b := 0) (by omega) (le_refl _) (le_refl _) h
    omega

private theorem mul_upper {x y a b : Nat} (hab : a + b ≤ ONE)
    (hx : x * (ONE - a) ≤ ONE * ONE) (hy : y * (ONE - b) ≤ ONE * ONE) :
    x * y / ONE * (ONE - (a + b)) ≤ ONE * ONE := by
  have hO := ONE_pos
  generalize ONE = o at *
  obtain ⟨c, rfl⟩ := Nat.exists_eq_add_of_le hab
  have e1 : a + b + c - a = b + c := by omega
  have e2 : a + b + c - b = a + c := by omega
  have e3 : a + b + c - (a + b) = c := by omega
  rw [e1] at hx; rw [e2] at hy; rw [e3]
  have h3 : x * y * c * (a + b + c) ≤ x * y * ((b + c) * (a + c)) := by
    rw [Nat.mul_assoc (x * y)]
    apply Nat.mul_le_mul_left
    nlinarith
  have h4 : x * y * ((b + c) * (a + c)) ≤ ((a + b + c) * (a + b + c)) * ((a + b + c) * (a + b + c)) := by
    calc x * y * ((b + c) * (a + c)) = (x * (b + c)) * (y * (a + c)) := by ring
      _ ≤ _ := Nat.mul_le_mul hx hy
  have h5 : x * y * c ≤ (a + b + c) * (a + b + c) * (a + b + c) := by
    have h6 := le_trans h3 h4
    rw [← Nat.mul_assoc] at h6
    exact Nat.le_of_mul_le_mul_right h6 hO
  have h7 : x * y / (a + b + c) * c ≤ x * y * c / (a + b + c) := by
    rw [Nat.le_div_iff_mul_le hO]
    calc x * y / (a + b + c) * c * (a + b + c) = (x * y / (a + b + c) * (a + b + c)) * c := by ring
      _ ≤ x * y * c := Nat.mul_le_mul_right c (Nat.div_mul_le_self _ _)
  refine h7.trans ?_
  apply Nat.div_le_of_le_mul
  linarith

private theorem le_two_of {x a : Nat} (ha : 2 * a ≤ ONE) (hx : x * (ONE - a) ≤ ONE * ONE) :
    x ≤ 2 * ONE := by
  have hO := ONE_pos
  generalize ONE = o at *
  by_contra hc
  have h1 : 2 * o < x := by omega
  have h2 : o ≤ 2 * (o - a) := by omega
  nlinarith

private theorem decMul_small {x y : Nat} (hx : x ≤ 2 * ONE) (hy : y ≤ 2 * ONE) :
    decMul x y = .ok (x * y / ONE) := by
  rw [decMul_eq_ok]
  refine ⟨?_, rfl⟩
  have : x * y / ONE ≤ 4 * ONE := by
    apply Nat.div_le_of_le_mul
    calc x * y ≤ (2 * ONE) * (2 * ONE) := Nat.mul_le_mul hx hy
      _ = ONE * (4 * ONE) := by ring
  have : 4 * ONE < U128 := by norm_num [ONE, U128]
  omega

theorem powLoop_upper {f x y n a b : Nat} (hf : n ≤ f) (hn : 0 < n)
    (hab : 2 * (n * a + b) ≤ ONE)
    (hx : x * (ONE - a) ≤ ONE * ONE) (hy : y * (ONE - b) ≤ ONE * ONE) :
    ∃ p, powLoop f x y n = .ok p ∧ p * (ONE - (n * a + b)) ≤ ONE * ONE := by
  induction f generalizing x y n a b with
  | zero => omega
  | succ f ih =>
    have hna : a ≤ n * a := Nat.le_mul_of_pos_left a hn
    have hx2 := le_two_of (by omega) hx
    have hy2 := le_two_of (by omega) hy
    simp only [powLoop]
    split
    · rename_i h1
      have : n = 1 := by omega
      subst this
      rw [decMul_small hx2 hy2]
      refine ⟨_, rfl, ?_⟩
      simpa using mul_upper (by omega) hx hy
    · rename_i h1
      have h2a : 2 * a ≤ n * a := Nat.mul_le_mul_right a (by omega)
      have hm := mul_upper (by omega) hx hx
      rw [← two_mul] at hm
      rw [decMul_small hx2 hx2, decMul_small hx2 hy2]
      split
      · rename_i h2
        have e : n / 2 * (2 * a) = n * a := by
          rw [← Nat.mul_assoc, Nat.div_mul_cancel (Nat.dvd_of_mod_eq_zero h2)]
        obtain ⟨p, hp, hp2⟩ := ih (n := n / 2) (by omega) (by omega) (by rw [e]; exact hab) hm hy
        exact ⟨p, hp, by rw [e] at hp2; exact hp2⟩
      · rename_i h2
        have e : (n - 1) / 2 * (2 * a) + a = n * a := by
          have : (n - 1) / 2 * 2 = n - 1 := Nat.div_mul_cancel (by omega)
          rw [← Nat.mul_assoc, this]
          obtain ⟨m, rfl⟩ : ∃ m, n = m + 1 := ⟨n - 1, by omega⟩
          simp [Nat.add_mul]
        have hm2 := mul_upper (by omega) hx hy
        obtain ⟨p, hp, hp2⟩ := ih (n := (n - 1) / 2) (b := a + b) (by omega) (by omega) (by omega) hm hm2
        refine ⟨p, hp, ?_⟩
        have e2 : (n - 1) / 2 * (2 * a) + (a + b) = n * a + b := by omega
        rw [e2] at hp2; exact hp2

/-- `(1+a)^n` is computed and at most `2` whenever `n a ≤ 1/2`. -/
theorem checkedPow_upper {a n : Nat} (h : 2 * (n * a) ≤ ONE) :
    ∃ p, checkedPow (ONE + a) n = .ok p ∧ p ≤ 2 * ONE := by
  unfold checkedPow
  split
  · exact ⟨ONE, rfl, by omega⟩
  · rename_i hn
    have hn : 0 < n := by omega
    have hna : a ≤ n * a := Nat.le_mul_of_pos_left a hn
    have hx : (ONE + a) * (ONE - a) ≤ ONE * ONE := by
      have : a ≤ ONE := by omega
      obtain ⟨c, hc⟩ := Nat.exists_eq_add_of_le this
      rw [hc]
      have : a + c - a = c := by omega
      rw [this]
      nlinarith
    obtain ⟨p, hp, hp2⟩ := powLoop_upper (le_refl n) hn (by simpa using h) hx (b := 0) (y := ONE) (by simp)
    refine ⟨p, hp, le_two_of h ?_⟩
    simpa using hp2

/-! ### sorting and sums of coins -/

@[simp] theorem amountOf_nil (d : Denom) : amountOf d [] = 0 := rfl
@[simp] theorem amountOf_cons (d : Denom) (c : Coin) (cs : List Coin) :
    amountOf d (c :: cs) = (if c.denom = d then c.amount else 0) + amountOf d cs := rfl

theorem amountOf_append (d : Denom) (xs ys : List Coin) :
    amountOf d (xs ++ ys) = amountOf d xs + amountOf d ys := by
  induction xs with
  | nil => simp
  | cons x xs ih => simp [ih]; omega

theorem amountOf_perm {xs ys : List Coin} (h : xs.Perm ys) (d : Denom) :
    amountOf d xs = amountOf d ys := by
  induction h with
  | nil => rfl
  | cons x _ ih => simp [ih]
  | swap x y l => simp; omega
  | trans _ _ ih1 ih2 => omega

theorem amountOf_filter_pos (d : Denom) (xs : List Coin) :
    amountOf d (xs.filter (fun c => c.amount ≠ 0)) = amountOf d xs := by
  induction xs with
  | nil => rfl
  | cons x xs ih =>
    by_cases h : x.amount = 0
    · rw [List.filter_cons_of_neg (by simp [h])]; rw [ih]; simp [h]
    · rw [List.filter_cons_of_pos (by simp [h])]; rw [amountOf_cons, ih, amountOf_cons]

theorem insertCoin_perm (c : Coin) (xs : List Coin) : (insertCoin c xs).Perm (c :: xs) := by
  induction xs with
  | nil => exact .refl _
  | cons x xs ih =>
    unfold insertCoin
    split
    · exact (ih.cons x).trans (.swap c x xs)
    · exact .refl _

theorem sortCoins_perm (cs : List Coin) : (sortCoins cs).Perm cs := by
  unfold sortCoins
  suffices h : ∀ (acc : List Coin), (cs.foldl (fun acc c => insertCoin c acc) acc).Perm (acc ++ cs) by
    simpa using h []
  induction cs with
  | nil => intro acc; simp
  | cons c cs ih =>
    intro acc
    rw [List.foldl_cons]
    refine (ih _).trans ?_
    refine ((insertCoin_perm c acc).append_right cs).trans ?_
    exact List.perm_middle.symm

theorem insertCoin_sorted (c : Coin) (xs : List Coin)
    (h : xs.Pairwise (fun a b => a.denom ≤ b.denom)) :
    (insertCoin c xs).Pairwise (fun a b => a.denom ≤ b.denom) := by
  induction xs with
  | nil => simp [insertCoin]
  | cons x xs ih =>
    rw [List.pairwise_cons] at h
    unfold insertCoin
    split
    · rename_i hle
      rw [List.pairwise_cons]
      refine ⟨?_, ih h.2⟩
      intro y hy
      have := (insertCoin_perm c xs).mem_iff.1 hy
      rcases List.mem_cons.1 this with rfl | hm
      · exact hle
      · exact h.1 y hm
    · rename_i hle
      have hlt : c.denom ≤ x.denom := by
        rcases String.le_total c.denom x.denom with h' | h'
        · exact h'
        · exact absurd h' hle
      rw [List.pairwise_cons]
      refine ⟨?_, List.pairwise_cons.2 h⟩
      intro y hy
      rcases List.mem_cons.1 hy with rfl | hm
      · exact hlt
      · exact String.le_trans hlt (h.1 y hm)

theorem sortCoins_sorted (cs : List Coin) :
    (sortCoins cs).Pairwise (fun a b => a.denom ≤ b.denom) := by
  unfold sortCoins
  suffices h : ∀ (acc : List Coin), acc.Pairwise (fun a b => a.denom ≤ b.denom) →
      (cs.foldl (fun acc c => insertCoin c acc) acc).Pairwise (fun a b => a.denom ≤ b.denom) by
    exact h [] .nil
  induction cs with
  | nil => intro acc h; exact h
  | cons c cs ih => intro acc h; exact ih _ (insertCoin_sorted c acc h)

theorem amountOf_sortCoins (d : Denom) (cs : List Coin) : amountOf d (sortCoins cs) = amountOf d cs :=
  amountOf_perm (sortCoins_perm cs) d

/-! ### KV stores -/

namespace KV
variable {K V : Type} [DecidableEq K]

@[simp] theorem get_nil (k : K) : get ([] : KV K V) k = none := rfl

theorem get_set (m : KV K V) (k k' : K) (v : V) :
    (m.set k v).get k' = if k = k' then some v else m.get k' := by
  induction m with
  | nil => simp [set, get]
  | cons e m ih =>
    obtain ⟨k0, v0⟩ := e
    unfold set
    by_cases h : k0 = k
    · subst h
      by_cases h' : k0 = k' <;> simp [get, h']
    · by_cases h' : k0 = k'
      · subst h'
        have : ¬ k = k0 := fun e => h e.symm
        simp [get, h, this]
      · simp [get, h, h', ih]

@[simp] theorem get_set_self (m : KV K V) (k : K) (v : V) : (m.set k v).get k = some v := by
  simp [get_set]

theorem get_set_ne (m : KV K V) {k k' : K} (v : V) (h : k ≠ k') : (m.set k v).get k' = m.get k' := by
  simp [get_set, h]

@[simp] theorem load_eq_ok {m : KV K V} {k : K} {v : V} : m.load k = .ok v ↔ m.get k = some v := by
  unfold load; split <;> simp_all

end KV
end Ibcx
