import Verif.Props.ReadDouble
/-
C150: reading a number gives a finite double, or the number is refused.
-/
namespace Verif.ReadDouble
open Verif.Ipc (Str)
open Verif.Receiver (digitChar dec)
open Verif.JsonText (fold isDigit NoDigit intPart)
open Verif.Grisu (two_ne ten_ne two_pos ten_pos cast_pow2 cast_pow10 nat_le nat_lt two_mono)
open Verif.Grisu.Spec (Finite number dist)
open Verif.Dtoa.Spec (Digits Fraction)
open Verif.Itoa.Spec (Numeral value)

/-- C150, full statement: a JSON number is refused or read as a finite double. -/
def C150_statement : Prop :=
  ∀ (s : Str) (neg : Bool) (ds : List Char) (n : Nat) (x : Int), Spec.Number s neg ds n x →
    readDouble s = .tooBig ∨ ∃ b, readDouble s = .ok b ∧ Finite b

/-! ## Sizes of doubles -/

theorem val_nonneg (b : Nat) : 0 ≤ val b := Rat.mul_nonneg (nat_le (Nat.zero_le _)) (Rat.le_of_lt (two_pos _))

/-- Every finite double is less than what is rounded to infinity, by one and more. -/
theorem val_top (b : Nat) (h : b < inf) : val b + 9 < top := by
  simp only [inf] at h
  obtain ⟨f, e, hb, -, f1, -, e2, -⟩ := Grisu.bits_ok b ⟨by omega, by omega⟩
  rw [Nat.mod_eq_of_lt (by omega)] at hb
  simp only [val, hb]
  have a := Rat.mul_le_mul_of_nonneg_right (nat_le (show f ≤ 2 ^ 53 - 1 by omega)) (Rat.le_of_lt (two_pos e))
  have c := Rat.mul_le_mul_of_nonneg_left (two_mono e 971 e2) (nat_le (Nat.zero_le (2 ^ 53 - 1)))
  have d : ((2 ^ 53 - 1 : Nat) : Rat) * 2 ^ (971 : Int) + 9 < top := by decide +kernel
  generalize ((2 ^ 53 - 1 : Nat) : Rat) = z at *
  have c0 : ((0 : Nat) : Rat) = 0 := rfl
  grind

/-- Doubles are ordered as their bits. -/
theorem val_mono (a b : Nat) (h : a ≤ b) (hb : b < inf) : val a ≤ val b := by
  simp only [inf] at hb
  simp only [val, Grisu.ofBits, Grisu.hidden]
  have ha : a / 2 ^ 52 % 2 ^ 11 = a / 2 ^ 52 := by omega
  have hb' : b / 2 ^ 52 % 2 ^ 11 = b / 2 ^ 52 := by omega
  rw [ha, hb']
  have hs : a / 2 ^ 52 < b / 2 ^ 52 ∨ a / 2 ^ 52 = b / 2 ^ 52 ∧ a % 2 ^ 52 ≤ b % 2 ^ 52 := by omega
  have hma : a % 2 ^ 52 < 2 ^ 52 := Nat.mod_lt _ (by decide)
  generalize a / 2 ^ 52 = x at *
  generalize b / 2 ^ 52 = y at *
  generalize a % 2 ^ 52 = m at *
  generalize b % 2 ^ 52 = k at *
  have mono : ∀ (p q : Nat) (e : Int), p ≤ q → (p : Rat) * 2 ^ e ≤ (q : Rat) * 2 ^ e := fun p q e hpq =>
    Rat.mul_le_mul_of_nonneg_right (nat_le hpq) (Rat.le_of_lt (two_pos e))
  rcases hs with hs | ⟨rfl, hs⟩
  · rw [if_pos (show y ≠ 0 by omega)]
    by_cases hx : x = 0
    · subst hx
      rw [if_neg (by simp)]
      dsimp only
      refine Rat.le_trans (mono m (k + 4503599627370496) (-1075 + 1) (by omega)) ?_
      exact Rat.mul_le_mul_of_nonneg_left (two_mono _ _ (by omega)) (nat_le (Nat.zero_le _))
    · rw [if_pos hx]
      dsimp only
      refine Rat.le_trans (mono (m + 4503599627370496) (2 ^ 53) _ (by omega)) ?_
      refine Rat.le_trans ?_ (mono (2 ^ 52) (k + 4503599627370496) _ (by omega))
      rw [cast_pow2, cast_pow2, ← Rat.zpow_add two_ne, ← Rat.zpow_add two_ne]
      exact two_mono _ _ (by omega)
  · by_cases hx : x = 0
    · rw [if_neg (by simp [hx]), if_neg (by simp [hx])]; exact mono _ _ _ hs
    · rw [if_pos hx, if_pos hx]; dsimp only; exact mono _ _ _ (by omega)

/-- Rounding at most doubles a number. -/
theorem rnd_double (q : Rat) (h : 0 ≤ q) (ht : q < top) : val (rnd q) ≤ 2 * q := by
  have := rnd_nearest q h ht 0 0 (by omega) (by omega)
  rw [show ((0 : Nat) : Rat) = 0 from rfl, Rat.zero_mul] at this
  simp only [dist] at this
  split at this <;> split at this <;> grind

theorem rnd_zero (b : Nat) (h : b < inf) (hv : val b = 0) : b = 0 := by
  have : val 0 = 0 := by decide +kernel
  exact val_inj b 0 h (by simp [inf]) (by rw [hv, this])

/-! ## One more digit -/

theorem digit_small (c : Char) (h : 48 ≤ c.toNat ∧ c.toNat ≤ 57) : val (ofNat (c.toNat - 48)) = ((c.toNat - 48 : Nat) : Rat) ∧
    ofNat (c.toNat - 48) < inf ∧ ((c.toNat - 48 : Nat) : Rat) ≤ 9 := by
  obtain ⟨a, b⟩ := ofNat_small (c.toNat - 48) (by omega)
  refine ⟨a, b, ?_⟩
  have := nat_le (show c.toNat - 48 ≤ 9 by omega)
  exact this

theorem times10_fin (d : Nat) (c : Char) (hd : d < inf) (hc : 48 ≤ c.toNat ∧ c.toNat ≤ 57) (h : val d * 10 < top) :
    times10 d c < inf ∧ val (times10 d c) ≤ 40 * val d + 18 := by
  obtain ⟨c1, c2, c3⟩ := digit_small c hc
  obtain ⟨t1, t2⟩ := ofNat_small 10 (by omega)
  have c0 : (0 : Rat) ≤ ((c.toNat - 48 : Nat) : Rat) := nat_le (Nat.zero_le _)
  have h0 := val_nonneg d
  have e10 : ((10 : Nat) : Rat) = 10 := rfl
  rw [e10] at t1
  have hm : mul d (ofNat 10) = rnd (val d * 10) := by
    simp only [mul]; rw [if_neg (by omega), t1]
  have m1 : rnd (val d * 10) < inf := rnd_finite _ (by grind) h
  have m2 := rnd_double (val d * 10) (by grind) h
  have m3 := val_top _ m1
  have m4 := val_nonneg (rnd (val d * 10))
  have ha : times10 d c = rnd (val (rnd (val d * 10)) + ((c.toNat - 48 : Nat) : Rat)) := by
    simp only [times10, hm, add]; rw [if_neg (by omega), c1]
  rw [ha]
  have q0 : (0 : Rat) ≤ val (rnd (val d * 10)) + ((c.toNat - 48 : Nat) : Rat) := by grind
  have q1 : val (rnd (val d * 10)) + ((c.toNat - 48 : Nat) : Rat) < top := by grind
  refine ⟨rnd_finite _ q0 q1, ?_⟩
  have := rnd_double _ q0 q1
  grind

theorem limit_ok : bigLimit < inf ∧ val bigLimit * 10 < top := by decide +kernel

/-- The loop over the digits of a big integer. -/
theorem bigLoop_ok (l : List Char) (hl : ∀ c ∈ l, 48 ≤ c.toNat ∧ c.toNat ≤ 57) (r : Str) (hr : NoDigit r) (d : Nat) (hd : d < inf) :
    bigLoop d (l ++ r) = .tooBig ∨ ∃ b, bigLoop d (l ++ r) = .ok (b, r) ∧ b < inf := by
  induction l generalizing d with
  | nil =>
    right
    refine ⟨d, ?_, hd⟩
    rw [List.nil_append]
    cases r with
    | nil => rfl
    | cons c r => rw [bigLoop, if_neg (by simp [hr c rfl])]
  | cons c l ih =>
    have hc := hl c (by simp)
    rw [List.cons_append, bigLoop, if_pos (isDigit_of hc)]
    by_cases h : d ≥ bigLimit
    · left; rw [if_pos h]
    · rw [if_neg h]
      obtain ⟨l1, l2⟩ := limit_ok
      have := val_mono d bigLimit (by omega) l1
      exact ih (fun x hx => hl x (by simp [hx])) _ (times10_fin d c hd hc (by grind)).1

/-! ## The fraction -/

theorem fracInt_fin (l : List Char) (hl : ∀ c ∈ l, 48 ≤ c.toNat ∧ c.toNat ≤ 57) (r : Str) (hr : NoDigit r) (i : Nat) (ef : Int) (sig : Nat)
    (hi : i < 2 ^ 64) : ∃ i' k sig' l', fracInt i ef sig (l ++ r) = (i', ef - (k : Nat), sig', l' ++ r) ∧ i' < 2 ^ 64 ∧ k + l'.length = l.length ∧
      ∀ c ∈ l', 48 ≤ c.toNat ∧ c.toNat ≤ 57 := by
  induction l generalizing i ef sig with
  | nil =>
    refine ⟨i, 0, sig, [], ?_, hi, rfl, by simp⟩
    rw [List.nil_append]
    cases r with
    | nil => simp [fracInt]
    | cons c r => simp [fracInt, hr c rfl]
  | cons c l ih =>
    have hc := hl c (by simp)
    rw [List.cons_append, fracInt, if_pos (isDigit_of hc)]
    by_cases h : i > 2 ^ 53 - 1
    · rw [if_pos h]
      exact ⟨i, 0, sig, c :: l, by simp, hi, by simp, hl⟩
    · rw [if_neg h]
      obtain ⟨i', k, sig', l', h1, h2, h3, h4⟩ := ih (fun x hx => hl x (by simp [hx])) (i * 10 + (c.toNat - 48)) (ef - 1)
        (if i * 10 + (c.toNat - 48) ≠ 0 then sig + 1 else sig) (by omega)
      refine ⟨i', k + 1, sig', l', ?_, h2, by rw [List.length_cons]; omega, h4⟩
      rw [h1, show ef - 1 - (k : Int) = ef - ((k + 1 : Nat) : Int) by omega]

/-- A bound for the number that is read so far. -/
def bound (sig : Nat) : Nat := 2 ^ 65 * 100 ^ sig

theorem bound_top (sig : Nat) (h : sig ≤ 17) : (bound sig : Rat) * 10 < top := by
  have : bound sig ≤ bound 17 := Nat.mul_le_mul_left _ (Nat.pow_le_pow_right (by omega) h)
  have := nat_le this
  have h2 : (bound 17 : Rat) * 10 < top := by decide +kernel
  grind

theorem fracDbl_fin (l : List Char) (hl : ∀ c ∈ l, 48 ≤ c.toNat ∧ c.toNat ≤ 57) (r : Str) (hr : NoDigit r) (d : Nat) (ef : Int) (sig : Nat)
    (hd : d < inf) (hb : sig < 17 → val d ≤ bound sig) :
    ∃ d' k, fracDbl d ef sig (l ++ r) = (d', ef - (k : Nat), r) ∧ d' < inf ∧ k ≤ l.length := by
  induction l generalizing d ef sig with
  | nil =>
    refine ⟨d, 0, ?_, hd, Nat.le_refl _⟩
    rw [List.nil_append, fracDbl_stop r hr]
    simp
  | cons c l ih =>
    have hc := hl c (by simp)
    have hl' : ∀ c ∈ l, 48 ≤ c.toNat ∧ c.toNat ≤ 57 := fun x hx => hl x (by simp [hx])
    rw [List.cons_append, fracDbl, if_pos (isDigit_of hc)]
    by_cases h : sig < 17
    · rw [if_pos h]
      have hv := hb h
      have ht := bound_top sig (by omega)
      obtain ⟨t1, t2⟩ := times10_fin d c hd hc (by grind)
      have hn : (if times10 d c > 0 then sig + 1 else sig) < 17 → val (times10 d c) ≤ bound (if times10 d c > 0 then sig + 1 else sig) := by
        intro _
        by_cases hz : times10 d c > 0
        · rw [if_pos hz]
          have e : (bound (sig + 1) : Rat) = 100 * (bound sig : Rat) := by
            have : bound (sig + 1) = 100 * bound sig := by simp only [bound, Nat.pow_succ]; omega
            rw [this, Rat.natCast_mul]; rfl
          have one : (1 : Rat) ≤ bound sig := by
            have : 1 ≤ bound sig := Nat.mul_pos (by decide) (Nat.pow_pos (by omega))
            exact nat_le this
          grind
        · rw [if_neg hz]
          have : times10 d c = 0 := by omega
          rw [this]
          have e0 : val 0 = 0 := by decide +kernel
          rw [e0]
          exact nat_le (Nat.zero_le _)
      obtain ⟨d', k, h1, h2, h3⟩ := ih hl' _ (ef - 1) _ t1 hn
      refine ⟨d', k + 1, ?_, h2, by rw [List.length_cons]; omega⟩
      rw [h1, show ef - 1 - (k : Int) = ef - ((k + 1 : Nat) : Int) by omega]
    · rw [if_neg h]
      obtain ⟨d', k, h1, h2, h3⟩ := ih hl' d ef sig hd hb
      exact ⟨d', k, h1, h2, by rw [List.length_cons]; omega⟩

/-! ## The integer part -/

theorem ofNat_word (i : Nat) (h : i < 2 ^ 64) : ofNat i < inf ∧ val (ofNat i) ≤ (2 ^ 65 : Nat) := by
  have h1 := nat_lt h
  have h2 : ((2 ^ 64 : Nat) : Rat) < top := by decide +kernel
  have h0 : (0 : Rat) ≤ (i : Rat) := nat_le (Nat.zero_le i)
  refine ⟨rnd_finite _ h0 (by grind), ?_⟩
  have := rnd_double (i : Rat) h0 (by grind)
  have e : ((2 ^ 65 : Nat) : Rat) = 2 * ((2 ^ 64 : Nat) : Rat) := by decide +kernel
  simp only [ofNat]
  grind

theorem fold_lt (l : List Nat) (h : ∀ d ∈ l, d < 10) (a : Nat) : fold a l < (a + 1) * 10 ^ l.length := by
  have h1 := Itoa.fold_split a l
  have h2 := Itoa.fold_lt l h
  rw [h1, Nat.add_mul, Nat.one_mul]; omega

/-- What is known when the integer part is read: the digits that are left, and that there were many if any are left. -/
theorem intPart_fin (neg : Bool) (i : List Char) (hi : Numeral i) (r : Str) (hr : NoDigit r) :
    ∃ v big l, intPart neg (i ++ r) = some (v, big, l ++ r) ∧ v < 2 ^ 64 ∧ (∀ c ∈ l, 48 ≤ c.toNat ∧ c.toNat ≤ 57) ∧ (big = false → l = []) ∧
      (big = true → 17 ≤ (i ++ r).length - (l ++ r).length - 1) := by
  obtain ⟨v, big, r', h1, h2, -, -⟩ := JsonText.intPart_complete neg (value i) r hr
  rw [← numeral_dec i hi] at h1
  have hdig : ∀ c, isDigit c = true → 48 ≤ c.toNat ∧ c.toNat ≤ 57 := by
    intro c hc; simpa [isDigit] using hc
  have hl : ∃ l, r' = l ++ r ∧ (∀ c ∈ l, 48 ≤ c.toNat ∧ c.toNat ≤ 57) ∧ (big = false → l = []) := by
    cases big with
    | false => exact ⟨[], by simpa using h2, by simp, fun _ => rfl⟩
    | true =>
      simp only [if_true] at h2
      refine ⟨r'.takeWhile isDigit, by rw [← h2, List.takeWhile_append_dropWhile], ?_, by simp⟩
      intro c hc
      exact hdig c (List.all_eq_true.1 List.all_takeWhile c hc)
  obtain ⟨l, rfl, l1, l2⟩ := hl
  obtain ⟨c, s, rfl⟩ := List.exists_cons_of_ne_nil hi.1
  refine ⟨v, big, l, h1, ?_, l1, l2, ?_⟩
  all_goals
    simp only [List.cons_append, intPart] at h1
    by_cases hc : c = '0'
    · rw [if_pos hc] at h1
      simp only [Option.some.injEq, Prod.mk.injEq] at h1
      obtain ⟨rfl, rfl, -⟩ := h1
      first | decide | (intro h; exact absurd h (by decide))
    · rw [if_neg hc, if_pos (isDigit_of (hi.2.1 c (by simp)))] at h1
      simp only [Option.some.injEq] at h1
      have hc9 : c.toNat - 48 < 10 := by have := hi.2.1 c (by simp); omega
      obtain ⟨m, w1, w2, w3, w4, w5⟩ := JsonText.wide_sound neg _ hc9 _ _ _ _ h1
      have hmax : 2 ^ 63 ≤ JsonText.maxOf neg ∧ JsonText.maxOf neg < 2 ^ 64 := by
        cases neg <;> simp [JsonText.maxOf]
      first
      | omega
      | (intro hb
         obtain ⟨e, r'', e1, -, e3⟩ := w5 hb
         have hlt := fold_lt m w1 (c.toNat - 48)
         rw [← w3] at hlt
         have hlen := congrArg List.length w2
         simp only [List.length_append, List.length_map] at hlen
         simp only [List.length_cons, List.length_append]
         rcases Nat.lt_or_ge m.length 17 with hm | hm
         · exfalso
           have : (c.toNat - 48 + 1) * 10 ^ m.length ≤ 10 * 10 ^ 16 :=
             Nat.mul_le_mul (by omega) (Nat.pow_le_pow_right (by omega) (by omega))
           omega
         · omega)

/-! ## The exponent and the powers -/

theorem expNeg_le (s : Str) (a : Nat) (h : a < 214748364) : expNeg a s ≤ 2147483639 := by
  induction s generalizing a with
  | nil => simp only [expNeg]; omega
  | cons c s ih =>
    rw [expNeg]
    by_cases hc : isDigit c = true
    · rw [if_pos hc]
      have : c.toNat - 48 ≤ 9 := by simp only [isDigit, Bool.and_eq_true, decide_eq_true_eq] at hc; omega
      by_cases h2 : a * 10 + (c.toNat - 48) ≥ 214748364
      · rw [if_pos h2]; omega
      · rw [if_neg h2]; exact ih _ (by omega)
    · rw [if_neg hc]; omega

theorem expPart_fin (e : List Char) (x ef : Int) (he : Spec.Exponent e x) (hx : x ≤ 0) (hf : ef ≤ 0) :
    ∃ y, expPart ef e = .ok y ∧ y ≤ 0 ∧ -2147483639 ≤ y ∧ (-214748364 < x → y = x) := by
  by_cases h : -214748364 < x
  · exact ⟨x, expPart_ok e x ef he h (by omega) (by omega), hx, by omega, fun _ => rfl⟩
  · rcases he with ⟨rfl, rfl⟩ | ⟨c, g, u, rfl, hc, ⟨hu0, hu⟩, hg⟩
    · omega
    · rcases hg with ⟨-, rfl⟩ | ⟨rfl, rfl⟩
      · omega
      · obtain ⟨d, s, rfl⟩ := List.exists_cons_of_ne_nil hu0
        have hd := hu d (by simp)
        have := expNeg_le s (d.toNat - 48) (by omega)
        refine ⟨-(expNeg (d.toNat - 48) s : Int), ?_, by omega, by omega, fun h' => absurd h' h⟩
        simp only [List.cons_append, List.nil_append]
        rw [expPart, if_pos hc]
        simp only [expDigits, if_true]

def powersFinite : Bool := (List.range 309).all fun k => decide (1 ≤ val (ofNat (10 ^ k))) && decide (ofNat (10 ^ k) < inf)

theorem pow_fin (k : Nat) (h : k ≤ 308) : 1 ≤ val (ofNat (10 ^ k)) ∧ ofNat (10 ^ k) < inf := by
  have h0 : powersFinite = true := by decide +kernel
  have := List.all_eq_true.1 h0 k (List.mem_range.2 (by omega))
  simpa using this

theorem fastPath_fin (d : Nat) (p : Int) (hd : d < inf) (hp : p ≤ 0) : ∃ b, fastPath d p = .ok b ∧ b < inf := by
  have ht := val_top d hd
  have h0 := val_nonneg d
  simp only [fastPath]
  by_cases h1 : p < -308
  · rw [if_pos h1]; exact ⟨0, rfl, by simp [inf]⟩
  · rw [if_neg h1]
    by_cases h2 : p ≥ 0
    · have : p = 0 := by omega
      subst this
      rw [if_pos h2]
      obtain ⟨t1, t2⟩ := ofNat_small 1 (by omega)
      have hpow : pow10 0 = .ok (ofNat 1) := by simp [pow10]
      rw [hpow]
      simp only [R.bind, mul]
      rw [if_neg (by omega), t1]
      have e1 : ((1 : Nat) : Rat) = 1 := rfl
      exact ⟨_, rfl, rnd_finite _ (by grind) (by grind)⟩
    · rw [if_neg h2]
      obtain ⟨t1, t2⟩ := pow_fin (-p).toNat (by omega)
      have hpow : pow10 (-p) = .ok (ofNat (10 ^ (-p).toNat)) := by simp only [pow10]; rw [if_pos (by omega)]
      rw [hpow]
      generalize ofNat (10 ^ (-p).toNat) = t at *
      simp only [R.bind, div]
      rw [if_neg (by omega)]
      have tp : (0 : Rat) < val t := by grind
      have q0 : 0 ≤ val d / val t := by
        rw [Rat.div_def]
        exact Rat.mul_nonneg h0 (Rat.le_of_lt (Rat.inv_pos.2 tp))
      have q1 : val d / val t ≤ val d := by
        refine Rat.le_of_mul_le_mul_right (c := val t) ?_ tp
        rw [Rat.div_mul_cancel (by grind)]
        have := Rat.mul_le_mul_of_nonneg_left t1 h0
        grind
      exact ⟨_, rfl, rnd_finite _ q0 (by grind)⟩

theorem strtod_fin (d : Nat) (p : Int) (hd : d < inf) (hp : p ≤ 0) : ∃ b, strtod d p = .ok b ∧ b < inf := by
  simp only [strtod]
  by_cases h : p < -308
  · rw [if_pos h]
    obtain ⟨b, h1, h2⟩ := fastPath_fin d (-308) hd (by omega)
    rw [h1]
    simp only [R.bind]
    exact fastPath_fin b (p + 308) h2 (by omega)
  · rw [if_neg h]; exact fastPath_fin d p hd hp

/-- Up to the exponent: the number is refused, or a finite double and the digits behind the point that it has are known. -/
theorem front (s : Str) (neg : Bool) (ds : List Char) (n : Nat) (x : Int) (h : Spec.Number s neg ds n x) :
    readDouble s = .tooBig ∨ ∃ (d' k : Nat) (e : List Char), d' < inf ∧ k ≤ n ∧ Spec.Exponent e x ∧
      readDouble s = (expPart (-(k : Int)) e).bind fun exp => (sum exp (-(k : Int))).bind fun p => (strtod d' p).bind fun d => .ok (signed neg d) := by
  obtain ⟨i, f, d, e, rfl, hi, hf, he, rfl, rfl⟩ := h
  have hfe := fraction_noDigit f d e x hf he
  have hhead : (((if neg then ['-'] else []) ++ (i ++ (f ++ e))).head? == some '-') = neg := by
    cases neg with
    | true => rfl
    | false =>
      obtain ⟨c, s, rfl⟩ := List.exists_cons_of_ne_nil hi.1
      have := digit_ne (hi.2.1 c (by simp)) (x := '-') (by decide)
      simp [this]
  have htail : (if neg then ((if neg then ['-'] else []) ++ (i ++ (f ++ e))).tail else ((if neg then ['-'] else []) ++ (i ++ (f ++ e)))) = i ++ (f ++ e) := by
    cases neg <;> rfl
  obtain ⟨v, big, l, i1, i2, i3, i4, i5⟩ := intPart_fin neg i hi (f ++ e) hfe
  simp only [readDouble]
  rw [hhead, htail, i1]
  dsimp only
  generalize (i ++ (f ++ e)).length - (l ++ (f ++ e)).length - 1 = sig at *
  have hbig : (if big then bigLoop (ofNat v) (l ++ (f ++ e)) else .ok (0, l ++ (f ++ e))) = .tooBig ∨
      ∃ b, (if big then bigLoop (ofNat v) (l ++ (f ++ e)) else .ok (0, l ++ (f ++ e))) = .ok (b, f ++ e) ∧ b < inf := by
    cases big with
    | true => simp only [if_true]; exact bigLoop_ok l i3 _ hfe _ (ofNat_word v i2).1
    | false => right; rw [i4 rfl]; exact ⟨0, rfl, by simp [inf]⟩
  simp only [rest]
  rcases hbig with hb | ⟨b, hb, hbf⟩
  · left; rw [hb]; rfl
  rw [hb]
  right
  have hfrac : ∃ d' k, fracPart big v b sig (f ++ e) = (d', -((k : Nat) : Int), e) ∧ d' < inf ∧ k ≤ d.length := by
    have hE := exponent_noDigit e x he
    rcases hf with ⟨rfl, rfl⟩ | ⟨rfl, hd⟩
    · have hne : ∀ s', e = '.' :: s' → False := by
        rcases he with ⟨rfl, -⟩ | ⟨c, g, u, rfl, hc, -⟩
        · intro s' h; simp at h
        · intro s' h
          simp only [List.cons.injEq] at h
          rcases hc with rfl | rfl <;> exact absurd h.1 (by decide)
      refine ⟨if big then b else ofNat v, 0, ?_, ?_, Nat.le_refl _⟩
      · rw [List.nil_append, fracPart]
        · simp only [Int.natCast_zero, Int.neg_zero]
        · exact hne
      · have := (ofNat_word v i2).1
        split <;> assumption
    · simp only [List.cons_append, fracPart]
      cases big with
      | true =>
        simp only [if_true]
        obtain ⟨d', k, h1, h2, h3⟩ := fracDbl_fin d hd.2 e hE b 0 sig hbf (fun h => absurd (i5 rfl) (by omega))
        exact ⟨d', k, by rw [h1, Int.zero_sub], h2, h3⟩
      | false =>
        simp only [Bool.false_eq_true, if_false]
        obtain ⟨i', k, sig', l', h1, h2, h3, h4⟩ := fracInt_fin d hd.2 e hE v 0 sig i2
        rw [h1]
        dsimp only
        obtain ⟨w1, w2⟩ := ofNat_word i' h2
        obtain ⟨d', k', h5, h6, h7⟩ := fracDbl_fin l' h4 e hE (ofNat i') (0 - (k : Int)) sig' w1 (by
          intro _
          have : 2 ^ 65 ≤ bound sig' := by
            have := Nat.mul_le_mul_left (2 ^ 65) (show 1 ≤ 100 ^ sig' from Nat.pow_pos (by omega))
            simp only [bound]; omega
          have := nat_le this
          exact Rat.le_trans w2 this)
        exact ⟨d', k + k', by rw [h5, show (0 : Int) - k - k' = -((k + k' : Nat) : Int) by omega], h6, by omega⟩
  obtain ⟨d', k, f1, f2, f3⟩ := hfrac
  refine ⟨d', k, e, f2, f3, he, ?_⟩
  simp only [R.bind, f1]

/-- **C150, partial** A JSON number whose exponent is not positive is refused or read as a finite double, if it has no more than nine
digits behind the point, or an exponent above -214748364 and no more than 10^9 digits behind the point. Missing: positive exponents
(`C150_infinite`) and the sum of an exponent and places that does not fit into an `int` (`C150_overflow`). -/
theorem C150_partial (s : Str) (neg : Bool) (ds : List Char) (n : Nat) (x : Int) (h : Spec.Number s neg ds n x) (hx : x ≤ 0)
    (hn : n ≤ 9 ∨ n ≤ 10 ^ 9 ∧ -214748364 < x) : readDouble s = .tooBig ∨ ∃ b, readDouble s = .ok b ∧ Finite b := by
  rcases front s neg ds n x h with h | ⟨d', k, e, f2, f3, he, hr⟩
  · exact Or.inl h
  rw [hr]
  obtain ⟨y, y1, y2, y3, y4⟩ := expPart_fin e x (-(k : Int)) he hx (by omega)
  rw [y1]
  simp only [R.bind, sum]
  have hsum : -2 ^ 31 ≤ y + -(k : Int) ∧ y + -(k : Int) < 2 ^ 31 := by
    rcases hn with hn | ⟨hn, hn2⟩
    · omega
    · have := y4 hn2
      omega
  rw [if_pos hsum]
  obtain ⟨z, z1, z2⟩ := strtod_fin d' (y + -(k : Int)) f2 (by omega)
  right
  exact ⟨signed neg z, by simp only [z1], (signed_number neg z z2).1⟩

/-! ## Exponents that are refused -/

theorem expPos_big (s : List Char) (hs : ∀ c ∈ s, 48 ≤ c.toNat ∧ c.toNat ≤ 57) (m : Int) (a : Nat) (ha : (a : Int) ≤ m) (hm : m < 200000000) (h : m < (cv a s : Int)) :
    expPos m a s = .tooBig := by
  induction s generalizing a with
  | nil => simp only [cv, List.foldl_nil] at h; omega
  | cons c s ih =>
    have hc := hs c (by simp)
    rw [cv_cons] at h
    rw [expPos, if_pos (isDigit_of hc), if_neg (by omega)]
    by_cases hb : m < ((a * 10 + (c.toNat - 48) : Nat) : Int)
    · rw [if_pos hb]
    · rw [if_neg (by omega), ih (fun x hx => hs x (by simp [hx])) _ (by omega) h]

theorem expPart_big (e : List Char) (x ef : Int) (he : Spec.Exponent e x) (h0 : ef ≤ 299) (h1 : -100000000 ≤ ef) (h3 : 308 - ef < x) : expPart ef e = .tooBig := by
  rcases he with ⟨rfl, rfl⟩ | ⟨c, g, u, rfl, hc, ⟨hu0, hu⟩, hx⟩
  · omega
  · obtain ⟨d, s, rfl⟩ := List.exists_cons_of_ne_nil hu0
    have hs : ∀ c ∈ s, 48 ≤ c.toNat ∧ c.toNat ≤ 57 := fun y hy => hu y (by simp [hy])
    have hdd := hu d (by simp)
    have d1 : d ≠ '+' := digit_ne hdd (by decide)
    have d2 : d ≠ '-' := digit_ne hdd (by decide)
    rw [value_cons] at hx
    rcases hx with ⟨hg, rfl⟩ | ⟨rfl, rfl⟩
    · have hp := expPos_big s hs (308 - ef) (d.toNat - 48) (by omega) (by omega) (by omega)
      have hd : expDigits false ef (d :: s) = .tooBig := by
        simp only [expDigits, Bool.false_eq_true, if_false, hp, R.bind]
      rcases hg with rfl | rfl
      · simp only [List.nil_append]
        rw [expPart, if_pos hc, hd]
        · intro t ht; simp only [List.cons.injEq] at ht; exact d1 ht.1
        · intro t ht; simp only [List.cons.injEq] at ht; exact d2 ht.1
      · simp only [List.cons_append, List.nil_append]
        rw [expPart, if_pos hc, hd]
    · omega

/-- **C150, refusals** A number with at most 53 bits of digits is refused if its last digit counts more than 10^308. -/
theorem C150_refused (s : Str) (neg : Bool) (ds : List Char) (n : Nat) (x : Int) (h : Spec.Number s neg ds n x) (hm : value ds < 2 ^ 53)
    (hx : 308 < x - n) (hn : n ≤ 10 ^ 8) : readDouble s = .tooBig := by
  obtain ⟨i, f, d, e, rfl, hi, hf, he, rfl, rfl⟩ := h
  have hfe := fraction_noDigit f d e x hf he
  have hge := cv_ge d (value i)
  rw [value_cv] at hm
  have hhead : (((if neg then ['-'] else []) ++ (i ++ (f ++ e))).head? == some '-') = neg := by
    cases neg with
    | true => rfl
    | false =>
      obtain ⟨c, s, rfl⟩ := List.exists_cons_of_ne_nil hi.1
      have := digit_ne (hi.2.1 c (by simp)) (x := '-') (by decide)
      simp [this]
  have htail : (if neg then ((if neg then ['-'] else []) ++ (i ++ (f ++ e))).tail else ((if neg then ['-'] else []) ++ (i ++ (f ++ e)))) = i ++ (f ++ e) := by
    cases neg <;> rfl
  have hint : intPart neg (i ++ (f ++ e)) = some (value i, false, f ++ e) := by
    have := JsonText.intPart_dec neg (value i) (f ++ e) hfe (by split <;> omega)
    rw [← numeral_dec i hi] at this
    exact this
  simp only [readDouble]
  rw [hhead, htail, hint]
  simp only [rest, Bool.false_eq_true, if_false, R.bind]
  generalize (i ++ (f ++ e)).length - (f ++ e).length - 1 = sig
  have hfrac : fracPart false (value i) 0 sig (f ++ e) = (ofNat (cv (value i) d), -(d.length : Int), e) := by
    rcases hf with ⟨rfl, rfl⟩ | ⟨rfl, hd⟩
    · simp only [List.nil_append, cv, List.foldl_nil, List.length_nil]
      have hne : ∀ s', e = '.' :: s' → False := by
        rcases he with ⟨rfl, -⟩ | ⟨c, g, u, rfl, hc, -⟩
        · intro s' h; simp at h
        · intro s' h
          simp only [List.cons.injEq] at h
          rcases hc with rfl | rfl <;> exact absurd h.1 (by decide)
      rw [fracPart]
      · simp only [Bool.false_eq_true, if_false, Int.natCast_zero, Int.neg_zero]
      · exact hne
    · obtain ⟨sig', hl⟩ := fracInt_ok d hd.2 e (exponent_noDigit e x he) (value i) 0 sig hm
      simp only [List.cons_append, fracPart, Bool.false_eq_true, if_false, hl]
      rw [fracDbl_stop e (exponent_noDigit e x he), show (0 : Int) - d.length = -(d.length : Int) by omega]
  rw [hfrac]
  dsimp only
  rw [expPart_big e x (-(d.length : Int)) he (by omega) (by omega) (by omega)]

/-! ## Positive exponents -/

theorem expPart_pos (e : List Char) (x ef : Int) (he : Spec.Exponent e x) (hx : 0 < x) (h0 : ef ≤ 0) (h1 : -100000000 ≤ ef) :
    expPart ef e = .tooBig ∨ expPart ef e = .ok x ∧ x ≤ 308 - ef := by
  by_cases h : x ≤ 308 - ef
  · exact Or.inr ⟨expPart_ok e x ef he (by omega) (by omega) h, h⟩
  · exact Or.inl (expPart_big e x ef he (by omega) h1 (by omega))

theorem rnd_le (q : Rat) : rnd q ≤ inf := by
  unfold rnd
  split
  · exact Nat.zero_le _
  · exact Nat.min_le_left _ _

theorem fastPath_pos (d : Nat) (p : Int) (hd : d < inf) (h0 : 0 ≤ p) (h1 : p ≤ 308) :
    fastPath d p = .ok (rnd (val d * val (ofNat (10 ^ p.toNat)))) := by
  obtain ⟨_, t2⟩ := pow_fin p.toNat (by omega)
  simp only [fastPath]
  rw [if_neg (by omega), if_pos h0]
  have hpow : pow10 p = .ok (ofNat (10 ^ p.toNat)) := by simp only [pow10]; rw [if_pos (by omega)]
  rw [hpow]
  simp only [R.bind, mul]
  rw [if_neg (by omega)]

theorem strtod_any (d : Nat) (p : Int) (hd : d < inf) (h1 : p ≤ 308) : ∃ b, strtod d p = .ok b ∧ b ≤ inf := by
  by_cases hp : p ≤ 0
  · obtain ⟨b, h2, h3⟩ := strtod_fin d p hd hp
    exact ⟨b, h2, by omega⟩
  · simp only [strtod]
    rw [if_neg (by omega), fastPath_pos d p hd (by omega) h1]
    exact ⟨_, rfl, rnd_le _⟩

/-- **C150, positive exponents** With a positive exponent and at most 10^8 digits behind the point nothing overflows an `int` and the
table is not left: the number is refused, or read as a double that is finite or infinite, never as NaN. -/
theorem C150_positive (s : Str) (neg : Bool) (ds : List Char) (n : Nat) (x : Int) (h : Spec.Number s neg ds n x) (hx : 0 < x) (hn : n ≤ 10 ^ 8) :
    readDouble s = .tooBig ∨ ∃ b, readDouble s = .ok b ∧ (Finite b ∨ b = signed neg inf) := by
  rcases front s neg ds n x h with h | ⟨d', k, e, f2, f3, he, hr⟩
  · exact Or.inl h
  rw [hr]
  rcases expPart_pos e x (-(k : Int)) he hx (by omega) (by omega) with h1 | ⟨h1, h2⟩
  · rw [h1]; exact Or.inl rfl
  · rw [h1]
    simp only [R.bind, sum]
    rw [if_pos (by omega)]
    obtain ⟨b, b1, b2⟩ := strtod_any d' (x + -(k : Int)) f2 (by omega)
    right
    refine ⟨signed neg b, by simp only [b1], ?_⟩
    rcases Nat.lt_or_ge b inf with h | h
    · exact Or.inl (signed_number neg b h).1
    · exact Or.inr (by rw [show b = inf by omega])

/-- No power is rounded up by more than one part in 10^15. -/
def powersClose : Bool := (List.range 309).all fun k => decide (val (ofNat (10 ^ k)) * 10 ^ 15 ≤ ((10 ^ k : Nat) : Rat) * (10 ^ 15 + 1))

theorem pow_close (k : Nat) (h : k ≤ 308) : val (ofNat (10 ^ k)) * 10 ^ 15 ≤ ((10 ^ k : Nat) : Rat) * (10 ^ 15 + 1) := by
  have h0 : powersClose = true := by decide +kernel
  have := List.all_eq_true.1 h0 k (List.mem_range.2 (by omega))
  simpa using this

/-- **C150, no infinity below 1.797e308** A number whose digits fit into 53 bits, and which is not more than 1.797 * 10^308, is read as a
finite double, for every exponent with a last digit of one or more. -/
theorem C150_finite (s : Str) (neg : Bool) (ds : List Char) (n : Nat) (x : Int) (h : Spec.Number s neg ds n x) (hm : value ds < 2 ^ 53)
    (h0 : (n : Int) ≤ x) (hn : n ≤ 10 ^ 8) (hb : value ds * 10 ^ (x - n).toNat ≤ 1797 * 10 ^ 305) (h308 : x - n ≤ 308) :
    ∃ b, readDouble s = .ok b ∧ Finite b := by
  obtain ⟨i, f, d, e, rfl, hi, hf, he, rfl, rfl⟩ := h
  have hfe := fraction_noDigit f d e x hf he
  have hge := cv_ge d (value i)
  rw [value_cv] at hm hb
  have hhead : (((if neg then ['-'] else []) ++ (i ++ (f ++ e))).head? == some '-') = neg := by
    cases neg with
    | true => rfl
    | false =>
      obtain ⟨c, s, rfl⟩ := List.exists_cons_of_ne_nil hi.1
      have := digit_ne (hi.2.1 c (by simp)) (x := '-') (by decide)
      simp [this]
  have htail : (if neg then ((if neg then ['-'] else []) ++ (i ++ (f ++ e))).tail else ((if neg then ['-'] else []) ++ (i ++ (f ++ e)))) = i ++ (f ++ e) := by
    cases neg <;> rfl
  have hint : intPart neg (i ++ (f ++ e)) = some (value i, false, f ++ e) := by
    have := JsonText.intPart_dec neg (value i) (f ++ e) hfe (by split <;> omega)
    rw [← numeral_dec i hi] at this
    exact this
  simp only [readDouble]
  rw [hhead, htail, hint]
  simp only [rest, Bool.false_eq_true, if_false, R.bind]
  generalize (i ++ (f ++ e)).length - (f ++ e).length - 1 = sig
  have hfrac : fracPart false (value i) 0 sig (f ++ e) = (ofNat (cv (value i) d), -(d.length : Int), e) := by
    rcases hf with ⟨rfl, rfl⟩ | ⟨rfl, hd⟩
    · simp only [List.nil_append, cv, List.foldl_nil, List.length_nil]
      have hne : ∀ s', e = '.' :: s' → False := by
        rcases he with ⟨rfl, -⟩ | ⟨c, g, u, rfl, hc, -⟩
        · intro s' h; simp at h
        · intro s' h
          simp only [List.cons.injEq] at h
          rcases hc with rfl | rfl <;> exact absurd h.1 (by decide)
      rw [fracPart]
      · simp only [Bool.false_eq_true, if_false, Int.natCast_zero, Int.neg_zero]
      · exact hne
    · obtain ⟨sig', hl⟩ := fracInt_ok d hd.2 e (exponent_noDigit e x he) (value i) 0 sig hm
      simp only [List.cons_append, fracPart, Bool.false_eq_true, if_false, hl]
      rw [fracDbl_stop e (exponent_noDigit e x he), show (0 : Int) - d.length = -(d.length : Int) by omega]
  rw [hfrac]
  dsimp only
  rw [expPart_ok e x (-(d.length : Int)) he (by omega) (by omega) (by omega)]
  dsimp only
  simp only [sum]
  rw [if_pos (by omega)]
  dsimp only
  obtain ⟨v1, v2⟩ := ofNat_small (cv (value i) d) hm
  generalize cv (value i) d = m at *
  have hs : strtod (ofNat m) (x + -(d.length : Int)) = .ok (rnd (val (ofNat m) * val (ofNat (10 ^ (x + -(d.length : Int)).toNat)))) := by
    simp only [strtod]
    rw [if_neg (by omega), fastPath_pos _ _ v2 (by omega) (by omega)]
  rw [hs, v1]
  dsimp only
  rw [show x + -(d.length : Int) = x - (d.length : Int) by omega]
  have hk := pow_close (x - (d.length : Int)).toNat (by omega)
  generalize (x - (d.length : Int)).toNat = k at *
  have m0 : (0 : Rat) ≤ (m : Rat) := nat_le (Nat.zero_le m)
  have hb' := nat_le hb
  rw [Rat.natCast_mul] at hb'
  have hmul := Rat.mul_le_mul_of_nonneg_left hk m0
  have htop : ((1797 * 10 ^ 305 : Nat) : Rat) * (10 ^ 15 + 1) < top * 10 ^ 15 := by decide +kernel
  have p0 := val_nonneg (ofNat (10 ^ k))
  generalize val (ofNat (10 ^ k)) = t at *
  generalize ((10 ^ k : Nat) : Rat) = w at *
  generalize ((1797 * 10 ^ 305 : Nat) : Rat) = z at *
  have hq : (m : Rat) * t < top := by
    have e15 : (0 : Rat) < 10 ^ 15 := by decide +kernel
    have e16 : (0 : Rat) ≤ 10 ^ 15 + 1 := by decide +kernel
    refine Rat.lt_of_mul_lt_mul_right (a := (m : Rat) * t) (b := top) (c := (10 : Rat) ^ 15) ?_ (Rat.le_of_lt e15)
    have h2 := Rat.mul_le_mul_of_nonneg_right hb' e16
    grind
  refine ⟨_, rfl, (signed_number neg _ (rnd_finite _ (Rat.mul_nonneg m0 p0) hq)).1⟩

/-- Non-vacuity: the numbers at the limit. -/
example : (∃ b, readDouble "1797e305".toList = .ok b ∧ b < inf) ∧ readDouble "1e309".toList = .tooBig ∧ readDouble "1.8e308".toList = .ok inf ∧
    readDouble "-1.8e308".toList = .ok (signed true inf) := by
  refine ⟨⟨_, rfl, ?_⟩, ?_⟩ <;> decide +kernel

/-- Non-vacuity: `-12.5e+00400`. -/
example : Spec.Number "-12.5e+00400".toList true "125".toList 1 400 :=
  ⟨"12".toList, ".5".toList, "5".toList, "e+00400".toList, by decide, by unfold Numeral; decide, .inr ⟨by decide, by unfold Digits; decide⟩,
      .inr ⟨'e', ['+'], "00400".toList, by decide, by decide, by unfold Digits; decide, .inl ⟨.inr rfl, by decide⟩⟩, by decide, by decide⟩

/-- **C150, violated** `9e308` is read as infinity. -/
theorem C150_infinite : ¬ C150_statement := by
  intro h
  have hn : Spec.Number "9e308".toList false "9".toList 0 308 :=
    ⟨"9".toList, [], [], "e308".toList, by decide, by unfold Numeral; decide, .inl ⟨rfl, rfl⟩,
      .inr ⟨'e', [], "308".toList, by decide, .inl rfl, by unfold Digits; decide, .inl ⟨.inl rfl, by decide⟩⟩, by decide, by decide⟩
  have e : readDouble "9e308".toList = .ok inf := by decide +kernel
  rcases h _ _ _ _ _ hn with h | ⟨b, h1, h2⟩
  · rw [e] at h; exact absurd h (by decide)
  · rw [e] at h1
    simp only [R.ok.injEq] at h1
    subst h1
    revert h2
    unfold Finite
    decide

/-- **C150, violated** `0.0000000000e-2147483639` makes the sum of its exponent and its places overflow. -/
theorem C150_overflow : ¬ C150_statement := by
  intro h
  have hn : Spec.Number "0.0000000000e-2147483639".toList false "00000000000".toList 10 (-2147483639) :=
    ⟨"0".toList, ".0000000000".toList, "0000000000".toList, "e-2147483639".toList, by decide, by unfold Numeral; decide, .inr ⟨by decide, by unfold Digits; decide⟩,
      .inr ⟨'e', ['-'], "2147483639".toList, by decide, .inl rfl, by unfold Digits; decide, .inr ⟨rfl, by decide⟩⟩, by decide, by decide⟩
  have e : readDouble "0.0000000000e-2147483639".toList = .ub := by decide +kernel
  rcases h _ _ _ _ _ hn with h | ⟨b, h1, -⟩
  · rw [e] at h; exact absurd h (by decide)
  · rw [e] at h1; simp at h1

/-- The hypotheses hold of a number of 40 digits, of one that is too big, and of one that is too small. -/
example : readDouble "1234567890123456789012345678901234567890.5e-3".toList = .ok 5146972932258190295 ∧
    readDouble ("1".toList ++ List.replicate 310 '0' ++ ".5".toList) = .tooBig ∧ readDouble "-1.5e-99999".toList = .ok (2 ^ 63) := by
  decide +kernel
example : Spec.Number "-1.5e-99999".toList true "15".toList 1 (-99999) :=
  ⟨"1".toList, ".5".toList, "5".toList, "e-99999".toList, by decide, by unfold Numeral; decide, .inr ⟨by decide, by unfold Digits; decide⟩,
    .inr ⟨'e', ['-'], "99999".toList, by decide, .inl rfl, by unfold Digits; decide, .inr ⟨rfl, by decide⟩⟩, by decide, by decide⟩

end Verif.ReadDouble
