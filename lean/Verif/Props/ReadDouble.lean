import Verif.Lemmas.Rounding
import Verif.Props.JsonDoubles
/-
C149: a double that is written and read back is the same. C150: reading a number gives a finite number or is refused.
-/
namespace Verif.ReadDouble
open Verif.Ipc (Str)
open Verif.Receiver (digitChar dec)
open Verif.JsonText (fold isDigit NoDigit intPart)
open Verif.Grisu (two_ne ten_ne two_pos ten_pos cast_pow2 cast_pow10 nat_le nat_lt two_mono)
open Verif.Grisu.Spec (Finite number dist)
open Verif.Dtoa.Spec (Digits Fraction)
open Verif.Itoa.Spec (Numeral value)

namespace Spec

/-- The exponent of a number and its value (RFC 8259, section 6). -/
def Exponent (s : List Char) (x : Int) : Prop :=
  s = [] ∧ x = 0 ∨ ∃ c g u, s = c :: (g ++ u) ∧ (c = 'e' ∨ c = 'E') ∧ Digits u ∧
    ((g = [] ∨ g = ['+']) ∧ x = value u ∨ g = ['-'] ∧ x = -(value u : Int))

/-- A JSON number (RFC 8259, section 6): whether there is a minus, its digits behind it up to the exponent, the number of
digits behind the point, and the exponent. -/
def Number (s : List Char) (neg : Bool) (digits : List Char) (places : Nat) (x : Int) : Prop :=
  ∃ i f d e : List Char, s = (if neg then ['-'] else []) ++ (i ++ (f ++ e)) ∧ Numeral i ∧ Fraction f d ∧ Exponent e x ∧
    digits = i ++ d ∧ places = d.length

/-- What it denotes. -/
def denoted (neg : Bool) (digits : List Char) (places : Nat) (x : Int) : Rat :=
  (if neg then -1 else 1) * ((value digits : Nat) : Rat) * 10 ^ (x - places)

end Spec

/-! ## Digits -/

/-- The value of digits behind a number. -/
def cv (a : Nat) (s : List Char) : Nat := s.foldl (fun a c => a * 10 + (c.toNat - 48)) a

theorem cv_ge (s : List Char) (a : Nat) : a ≤ cv a s := by
  induction s generalizing a with
  | nil => exact Nat.le_refl _
  | cons c s ih => have := ih (a * 10 + (c.toNat - 48)); simp only [cv, List.foldl_cons] at this ⊢; omega

theorem cv_cons (a : Nat) (c : Char) (s : List Char) : cv a (c :: s) = cv (a * 10 + (c.toNat - 48)) s := by
  simp only [cv, List.foldl_cons]

theorem value_cv (i d : List Char) : value (i ++ d) = cv (value i) d := by simp only [value, cv, List.foldl_append]

theorem isDigit_of {c : Char} (h : 48 ≤ c.toNat ∧ c.toNat ≤ 57) : isDigit c = true := by simp [isDigit, h]

theorem digit_ne {c x : Char} (h : 48 ≤ c.toNat ∧ c.toNat ≤ 57) (hx : isDigit x = false) : c ≠ x := by
  rintro rfl
  rw [isDigit_of h] at hx
  exact absurd hx (by decide)

/-- A numeral is what the decimal digits of its value are. -/
theorem numeral_dec (i : List Char) (h : Numeral i) : i = dec (value i) := by
  obtain ⟨h0, h1, h2⟩ := h
  cases i with
  | nil => exact absurd rfl h0
  | cons c s =>
    by_cases hc : c = '0'
    · subst hc
      have := h2 rfl
      rw [this]
      decide
    · have hd : ∀ c : Char, (48 ≤ c.toNat ∧ c.toNat ≤ 57) → digitChar (c.toNat - 48) = c ∧ c.toNat - 48 < 10 :=
        fun c h => JsonText.digitChar_of c (isDigit_of h)
      have hs : s = (s.map (fun c => c.toNat - 48)).map digitChar := by
        rw [List.map_map]
        conv => lhs; rw [← List.map_id s]
        refine List.map_congr_left ?_
        intro x hx
        exact ((hd x (h1 x (by simp [hx]))).1).symm
      have hl : ∀ x ∈ s.map (fun c => c.toNat - 48), x < 10 := by
        intro x hx
        obtain ⟨y, hy, rfl⟩ := List.mem_map.1 hx
        exact (hd y (h1 y (by simp [hy]))).2
      have hp : 0 < c.toNat - 48 := by
        rcases Nat.eq_zero_or_pos (c.toNat - 48) with h | h
        · exfalso
          apply hc
          rw [← (hd c (h1 c (by simp))).1, h]
          rfl
        · exact h
      have hv : value (c :: s) = fold (c.toNat - 48) (s.map (fun c => c.toNat - 48)) := by
        simp [value, fold, List.foldl_map]
      rw [hv, JsonText.dec_fold _ hp (hd c (h1 c (by simp))).2 _ hl, (hd c (h1 c (by simp))).1, ← hs]

theorem noDigit_nil : NoDigit [] := by intro c h; simp at h

theorem exponent_noDigit (e : List Char) (x : Int) (h : Spec.Exponent e x) : NoDigit e := by
  rcases h with ⟨rfl, -⟩ | ⟨c, g, u, rfl, hc, -⟩
  · exact noDigit_nil
  · intro y hy
    simp only [List.head?_cons, Option.some.injEq] at hy
    subst hy
    rcases hc with rfl | rfl <;> decide

theorem fraction_noDigit (f d e : List Char) (x : Int) (hf : Fraction f d) (he : Spec.Exponent e x) : NoDigit (f ++ e) := by
  rcases hf with ⟨rfl, -⟩ | ⟨rfl, -⟩
  · exact exponent_noDigit e x he
  · intro y hy
    simp only [List.cons_append, List.head?_cons, Option.some.injEq] at hy
    subst hy; decide

/-! ## The loops -/

theorem fracInt_ok (d : List Char) (hd : ∀ c ∈ d, 48 ≤ c.toNat ∧ c.toNat ≤ 57) (r : Str) (hr : NoDigit r) (i : Nat) (ef : Int) (sig : Nat)
    (h : cv i d < 2 ^ 53) : ∃ sig', fracInt i ef sig (d ++ r) = (cv i d, ef - d.length, sig', r) := by
  induction d generalizing i ef sig with
  | nil =>
    refine ⟨sig, ?_⟩
    simp only [List.nil_append, cv, List.foldl_nil, List.length_nil]
    cases r with
    | nil => simp [fracInt]
    | cons c r => simp [fracInt, hr c rfl]
  | cons c d ih =>
    have hge := cv_ge d (i * 10 + (c.toNat - 48))
    rw [cv_cons] at h
    obtain ⟨sig', h1⟩ := ih (fun x hx => hd x (by simp [hx])) (i * 10 + (c.toNat - 48)) (ef - 1)
      (if i * 10 + (c.toNat - 48) ≠ 0 then sig + 1 else sig) h
    refine ⟨sig', ?_⟩
    rw [List.cons_append, fracInt, if_pos (isDigit_of (hd c (by simp))), if_neg (by omega), h1, cv_cons, List.length_cons,
      show ef - 1 - (d.length : Int) = ef - ((d.length + 1 : Nat) : Int) by omega]

theorem fracDbl_stop (r : Str) (hr : NoDigit r) (d : Nat) (ef : Int) (sig : Nat) : fracDbl d ef sig r = (d, ef, r) := by
  cases r with
  | nil => rfl
  | cons c r => simp [fracDbl, hr c rfl]

theorem expNeg_ok (s : List Char) (hs : ∀ c ∈ s, 48 ≤ c.toNat ∧ c.toNat ≤ 57) (a : Nat) (h : cv a s < 214748364) : expNeg a s = cv a s := by
  induction s generalizing a with
  | nil => rfl
  | cons c s ih =>
    have := cv_ge s (a * 10 + (c.toNat - 48))
    rw [cv_cons] at h ⊢
    rw [expNeg, if_pos (isDigit_of (hs c (by simp))), if_neg (by omega), ih (fun x hx => hs x (by simp [hx])) _ h]

theorem expPos_ok (s : List Char) (hs : ∀ c ∈ s, 48 ≤ c.toNat ∧ c.toNat ≤ 57) (m : Int) (a : Nat) (h : cv a s < 2 ^ 31) (hm : (cv a s : Int) ≤ m) :
    expPos m a s = .ok (cv a s) := by
  induction s generalizing a with
  | nil => rfl
  | cons c s ih =>
    have := cv_ge s (a * 10 + (c.toNat - 48))
    rw [cv_cons] at h hm ⊢
    rw [expPos, if_pos (isDigit_of (hs c (by simp))), if_neg (by omega), if_neg (by omega), ih (fun x hx => hs x (by simp [hx])) _ h hm]

theorem value_cons (c : Char) (s : List Char) : value (c :: s) = cv (c.toNat - 48) s := by
  simp [value, cv]

theorem expPart_ok (e : List Char) (x ef : Int) (he : Spec.Exponent e x) (h1 : -214748364 < x) (h2 : x < 2 ^ 31) (h3 : x ≤ 308 - ef) :
    expPart ef e = .ok x := by
  rcases he with ⟨rfl, rfl⟩ | ⟨c, g, u, rfl, hc, ⟨hu0, hu⟩, hx⟩
  · rfl
  · obtain ⟨d, s, rfl⟩ := List.exists_cons_of_ne_nil hu0
    have hs : ∀ c ∈ s, 48 ≤ c.toNat ∧ c.toNat ≤ 57 := fun y hy => hu y (by simp [hy])
    have d1 : d ≠ '+' := digit_ne (hu d (by simp)) (by decide)
    have d2 : d ≠ '-' := digit_ne (hu d (by simp)) (by decide)
    rw [value_cons] at hx
    rcases hx with ⟨hg, rfl⟩ | ⟨rfl, rfl⟩
    · have hp := expPos_ok s hs (308 - ef) (d.toNat - 48) (by omega) (by omega)
      have hd : expDigits false ef (d :: s) = .ok (cv (d.toNat - 48) s : Int) := by
        simp only [expDigits, Bool.false_eq_true, if_false, hp, R.bind]
      rcases hg with rfl | rfl
      · simp only [List.nil_append]
        rw [expPart, if_pos hc, hd]
        · intro t ht; simp only [List.cons.injEq] at ht; exact d1 ht.1
        · intro t ht; simp only [List.cons.injEq] at ht; exact d2 ht.1
      · simp only [List.cons_append, List.nil_append]
        rw [expPart, if_pos hc, hd]
    · simp only [List.cons_append, List.nil_append]
      rw [expPart, if_pos hc]
      simp only [expDigits, if_true]
      rw [expNeg_ok s hs _ (by omega)]

/-! ## Powers -/

theorem top_big : (2 : Rat) ^ (53 : Int) * 10 ^ (22 : Int) < top ∧ (1 : Rat) < top := by decide +kernel

theorem ofNat_small (n : Nat) (h : n < 2 ^ 53) : val (ofNat n) = n ∧ ofNat n < inf := by
  have e : ((n : Nat) : Rat) = (n : Rat) * 2 ^ (0 : Int) := by
    have : (2 : Rat) ^ (0 : Int) = 1 := by decide +kernel
    rw [this, Rat.mul_one]
  have ht : (n : Rat) < top := by
    have h1 := nat_lt h
    have h2 : ((2 ^ 53 : Nat) : Rat) < top := by decide +kernel
    grind
  refine ⟨?_, rnd_finite _ (nat_le (Nat.zero_le n)) ht⟩
  have := rnd_exact n 0 h (by omega) (by rw [← e]; exact ht)
  rw [← e] at this
  exact this

def powersExact : Bool := (List.range 23).all fun k => decide (val (ofNat (10 ^ k)) = ((10 ^ k : Nat) : Rat)) && decide (ofNat (10 ^ k) < inf)

theorem pow_small (k : Nat) (h : k ≤ 22) : val (ofNat (10 ^ k)) = ((10 ^ k : Nat) : Rat) ∧ ofNat (10 ^ k) < inf := by
  have h0 : powersExact = true := by decide +kernel
  have := List.all_eq_true.1 h0 k (List.mem_range.2 (by omega))
  simpa using this

/-- Up to 53 bits and 22 places one operation is rounded. -/
theorem strtod_ok (m : Nat) (p : Int) (hm : m < 2 ^ 53) (h1 : -22 ≤ p) (h2 : p ≤ 22) :
    strtod (ofNat m) p = .ok (rnd ((m : Rat) * 10 ^ p)) := by
  obtain ⟨m1, m2⟩ := ofNat_small m hm
  simp only [strtod]
  rw [if_neg (by omega)]
  simp only [fastPath]
  rw [if_neg (by omega)]
  by_cases hp : p ≥ 0
  · rw [if_pos hp]
    obtain ⟨t1, t2⟩ := pow_small p.toNat (by omega)
    have hpow : pow10 p = .ok (ofNat (10 ^ p.toNat)) := by simp only [pow10]; rw [if_pos (by omega)]
    rw [hpow]
    generalize ofNat (10 ^ p.toNat) = t at *
    simp only [R.bind, mul]
    rw [if_neg (by omega), m1, t1, cast_pow10, show ((p.toNat : Nat) : Int) = p by omega]
  · rw [if_neg hp]
    obtain ⟨t1, t2⟩ := pow_small (-p).toNat (by omega)
    have hpow : pow10 (-p) = .ok (ofNat (10 ^ (-p).toNat)) := by simp only [pow10]; rw [if_pos (by omega)]
    rw [hpow]
    generalize ofNat (10 ^ (-p).toNat) = t at *
    simp only [R.bind, div]
    rw [if_neg (by omega), m1, t1, cast_pow10, show (((-p).toNat : Nat) : Int) = -p by omega, Rat.div_def, ← Rat.zpow_neg, show - -p = p by omega]

/-! ## A number of up to 53 bits and 22 places -/

theorem denoted_lt (m : Nat) (p : Int) (hm : m < 2 ^ 53) (h2 : p ≤ 22) : 0 ≤ (m : Rat) * 10 ^ p ∧ (m : Rat) * 10 ^ p < top := by
  have a := Rat.mul_le_mul_of_nonneg_right (nat_le (Nat.le_of_lt hm)) (Rat.le_of_lt (ten_pos p))
  have b := Rat.mul_le_mul_of_nonneg_left (Grisu.ten_mono p 22 h2) (Rat.le_of_lt (two_pos 53))
  have c := top_big.1
  rw [cast_pow2] at a
  have e5 : (2 : Rat) ^ (((53 : Nat) : Int)) = 2 ^ (53 : Int) := rfl
  rw [e5] at a
  exact ⟨Rat.mul_nonneg (nat_le (Nat.zero_le m)) (Rat.le_of_lt (ten_pos p)), by grind⟩

theorem read_ok (s : Str) (neg : Bool) (ds : List Char) (n : Nat) (x : Int) (h : Spec.Number s neg ds n x) (hm : value ds < 2 ^ 53)
    (h1 : -22 ≤ x - n) (h2 : x - n ≤ 22) (hn : n ≤ 10 ^ 8) :
    readDouble s = .ok (signed neg (rnd ((value ds : Nat) * 10 ^ (x - n)))) := by
  obtain ⟨i, f, d, e, rfl, hi, hf, he, rfl, rfl⟩ := h
  have hfe := fraction_noDigit f d e x hf he
  have hge := cv_ge d (value i)
  rw [value_cv] at hm ⊢
  have hhead : (((if neg then ['-'] else []) ++ (i ++ (f ++ e))).head? == some '-') = neg := by
    cases neg with
    | true => rfl
    | false =>
      obtain ⟨c, s, rfl⟩ := List.exists_cons_of_ne_nil hi.1
      have := digit_ne (hi.2.1 c (by simp)) (x := '-') (by decide)
      simp [this]
  have htail : (if neg then ((if neg then ['-'] else []) ++ (i ++ (f ++ e))).tail else ((if neg then ['-'] else []) ++ (i ++ (f ++ e)))) = i ++ (f ++ e) := by
    cases neg <;> rfl
  have hint : intPart neg (i ++ (f ++ e)) = some (value i, false, f ++ e) := by
    have := JsonText.intPart_dec neg (value i) (f ++ e) hfe (by split <;> omega)
    rw [← numeral_dec i hi] at this
    exact this
  simp only [readDouble]
  rw [hhead, htail, hint]
  simp only [rest, Bool.false_eq_true, if_false, R.bind]
  generalize (i ++ (f ++ e)).length - (f ++ e).length - 1 = sig
  have hfrac : fracPart false (value i) 0 sig (f ++ e) = (ofNat (cv (value i) d), -(d.length : Int), e) := by
    rcases hf with ⟨rfl, rfl⟩ | ⟨rfl, hd⟩
    · simp only [List.nil_append, cv, List.foldl_nil, List.length_nil]
      have hne : ∀ s', e = '.' :: s' → False := by
        rcases he with ⟨rfl, -⟩ | ⟨c, g, u, rfl, hc, -⟩
        · intro s' h; simp at h
        · intro s' h
          simp only [List.cons.injEq] at h
          rcases hc with rfl | rfl <;> exact absurd h.1 (by decide)
      rw [fracPart]
      · simp only [Bool.false_eq_true, if_false, Int.natCast_zero, Int.neg_zero]
      · exact hne
    · obtain ⟨sig', hl⟩ := fracInt_ok d hd.2 e (exponent_noDigit e x he) (value i) 0 sig hm
      simp only [List.cons_append, fracPart, Bool.false_eq_true, if_false, hl]
      rw [fracDbl_stop e (exponent_noDigit e x he), show (0 : Int) - d.length = -(d.length : Int) by omega]
  rw [hfrac]
  dsimp only
  rw [expPart_ok e x (-(d.length : Int)) he (by omega) (by omega) (by omega)]
  simp only [sum]
  rw [if_pos (by omega), show x + -(d.length : Int) = x - d.length by omega]
  simp only [strtod_ok _ _ hm h1 h2]

theorem signed_number (neg : Bool) (b : Nat) (h : b < inf) : Finite (signed neg b) ∧ number (signed neg b) = (if neg then -1 else 1) * val b ∧
    (signed neg b / 2 ^ 63 % 2 = 1 ↔ neg = true) := by
  obtain ⟨v1, v2⟩ := val_number b h
  simp only [inf] at h
  cases neg with
  | false =>
    refine ⟨v1, ?_, ?_⟩
    · simp only [signed, Bool.false_eq_true, if_false, Rat.one_mul]; exact v2
    · simp only [signed, Bool.false_eq_true, if_false, iff_false]; omega
  | true =>
    have hf : Finite (b + 2 ^ 63) := ⟨by omega, by omega⟩
    refine ⟨hf, ?_, ?_⟩
    · simp only [signed, if_true]
      obtain ⟨f, e, hb, hn, -⟩ := Grisu.bits_ok _ hf
      rw [show (b + 2 ^ 63) % 2 ^ 63 = b by omega] at hb
      rw [hn, if_pos (by omega)]
      simp only [val, hb]
    · simp only [signed, if_true, iff_true]; omega

/-- The nearest of all doubles, also of negative ones. -/
theorem rnd_best (neg : Bool) (q : Rat) (h : 0 ≤ q) (ht : q < top) (w : Nat) (hw : Finite w) :
    dist ((if neg then -1 else 1) * q) (number (signed neg (rnd q))) ≤ dist ((if neg then -1 else 1) * q) (number w) := by
  rw [(signed_number neg (rnd q) (rnd_finite q h ht)).2.1]
  obtain ⟨g, k, -, wnum, hg, hk, -⟩ := Grisu.bits_ok w hw
  have all : ∀ b : Bool, dist q (val (rnd q)) ≤ dist q ((if b then -1 else 1) * ((g : Rat) * 2 ^ k)) := by
    intro b
    cases b with
    | false => simp only [Bool.false_eq_true, if_false, Rat.one_mul]; exact rnd_nearest q h ht g k hg hk
    | true =>
      have h0 := rnd_nearest q h ht 0 0 (by omega) (by omega)
      rw [show ((0 : Nat) : Rat) = 0 from rfl, Rat.zero_mul] at h0
      refine Rat.le_trans h0 ?_
      have : (0 : Rat) ≤ (g : Rat) * 2 ^ k := Rat.mul_nonneg (nat_le (Nat.zero_le g)) (Rat.le_of_lt (two_pos k))
      simp only [dist, if_true]
      split <;> split <;> grind
  rw [wnum]
  cases neg with
  | false =>
    simp only [Bool.false_eq_true, if_false, Rat.one_mul]
    by_cases hs : w / 2 ^ 63 % 2 = 1
    · have := all true; simpa only [hs, if_true] using this
    · have := all false; simpa only [hs, if_false, Bool.false_eq_true] using this
  | true =>
    simp only [if_true]
    rw [Grisu.dist_neg, Grisu.dist_neg]
    have e1 : -1 * (-1 * val (rnd q)) = val (rnd q) := by grind
    rw [e1]
    by_cases hs : w / 2 ^ 63 % 2 = 1
    · have := all false
      simp only [Bool.false_eq_true, if_false, Rat.one_mul] at this
      simp only [hs, if_true]
      have e2 : -1 * (-1 * ((g : Rat) * 2 ^ k)) = (g : Rat) * 2 ^ k := by grind
      rw [e2]; exact this
    · have := all true
      simp only [if_true] at this
      simp only [hs, if_false, Rat.one_mul]; exact this

/-- **C149, reading** A JSON number with at most 53 bits of digits, of which the last one counts 10^-22 to 10^22, is read as the
double that is nearest to what it denotes. -/
theorem C149_read (s : Str) (neg : Bool) (ds : List Char) (n : Nat) (x : Int) (h : Spec.Number s neg ds n x) (hm : value ds < 2 ^ 53)
    (h1 : -22 ≤ x - n) (h2 : x - n ≤ 22) (hn : n ≤ 10 ^ 8) :
    ∃ b, readDouble s = .ok b ∧ Finite b ∧ (b / 2 ^ 63 % 2 = 1 ↔ neg = true) ∧
      ∀ w, Finite w → dist (Spec.denoted neg ds n x) (number b) ≤ dist (Spec.denoted neg ds n x) (number w) := by
  obtain ⟨q1, q2⟩ := denoted_lt (value ds) (x - n) hm h2
  obtain ⟨s1, s2, s3⟩ := signed_number neg _ (rnd_finite _ q1 q2)
  refine ⟨_, read_ok s neg ds n x h hm h1 h2 hn, s1, s3, ?_⟩
  intro w hw
  have e : Spec.denoted neg ds n x = (if neg then -1 else 1) * ((value ds : Nat) * 10 ^ (x - n)) := by
    simp only [Spec.denoted]; grind
  rw [e]
  exact rnd_best neg _ q1 q2 w hw

/-! ## A number has one reading -/

theorem split_unique (a b r s : List Char) (ha : ∀ c ∈ a, 48 ≤ c.toNat ∧ c.toNat ≤ 57) (hb : ∀ c ∈ b, 48 ≤ c.toNat ∧ c.toNat ≤ 57)
    (hr : NoDigit r) (hs : NoDigit s) (h : a ++ r = b ++ s) : a = b ∧ r = s := by
  induction a generalizing b with
  | nil =>
    cases b with
    | nil => exact ⟨rfl, h⟩
    | cons c b =>
      exfalso
      simp only [List.nil_append, List.cons_append] at h
      have := hr c (by rw [h]; rfl)
      rw [isDigit_of (hb c (by simp))] at this
      exact absurd this (by decide)
  | cons c a ih =>
    cases b with
    | nil =>
      exfalso
      simp only [List.nil_append, List.cons_append] at h
      have := hs c (by rw [← h]; rfl)
      rw [isDigit_of (ha c (by simp))] at this
      exact absurd this (by decide)
    | cons d b =>
      simp only [List.cons_append, List.cons.injEq] at h
      obtain ⟨h1, h2⟩ := ih b (fun x hx => ha x (by simp [hx])) (fun x hx => hb x (by simp [hx])) h.2
      rw [h.1, h1]
      exact ⟨rfl, h2⟩

theorem exponent_unique (e : List Char) (x y : Int) (h : Spec.Exponent e x) (k : Spec.Exponent e y) : x = y := by
  rcases h with ⟨rfl, rfl⟩ | ⟨c, g, u, rfl, hc, ⟨hu0, hu⟩, hx⟩
  · rcases k with ⟨-, rfl⟩ | ⟨c, g, u, h, -⟩
    · rfl
    · simp at h
  · rcases k with ⟨h, -⟩ | ⟨c', g', u', h, -, ⟨hu0', hu'⟩, hy⟩
    · simp at h
    · simp only [List.cons.injEq] at h
      have h := h.2
      obtain ⟨d, s, rfl⟩ := List.exists_cons_of_ne_nil hu0
      obtain ⟨d', s', rfl⟩ := List.exists_cons_of_ne_nil hu0'
      have d1 : d ≠ '+' := digit_ne (hu d (by simp)) (by decide)
      have d2 : d ≠ '-' := digit_ne (hu d (by simp)) (by decide)
      have d3 : d' ≠ '+' := digit_ne (hu' d' (by simp)) (by decide)
      have d4 : d' ≠ '-' := digit_ne (hu' d' (by simp)) (by decide)
      rcases hx with ⟨rfl | rfl, rfl⟩ | ⟨rfl, rfl⟩ <;> rcases hy with ⟨rfl | rfl, rfl⟩ | ⟨rfl, rfl⟩ <;>
        simp only [List.nil_append, List.cons_append, List.cons.injEq] at h
      · rw [h.1, h.2]
      · exact absurd h.1 d1
      · exact absurd h.1 d2
      · exact absurd h.1.symm d3
      · rw [h.2.1, h.2.2]
      · exact absurd h.1 (by decide)
      · exact absurd h.1.symm d4
      · exact absurd h.1 (by decide)
      · rw [h.2.1, h.2.2]

theorem number_unique (s : List Char) (neg neg' : Bool) (ds ds' : List Char) (n n' : Nat) (x x' : Int) (h : Spec.Number s neg ds n x)
    (k : Spec.Number s neg' ds' n' x') : neg = neg' ∧ ds = ds' ∧ n = n' ∧ x = x' := by
  obtain ⟨i, f, d, e, rfl, hi, hf, he, rfl, rfl⟩ := h
  obtain ⟨i', f', d', e', hs, hi', hf', he', rfl, rfl⟩ := k
  obtain ⟨c, t, rfl⟩ := List.exists_cons_of_ne_nil hi.1
  obtain ⟨c', t', rfl⟩ := List.exists_cons_of_ne_nil hi'.1
  have c1 := digit_ne (hi.2.1 c (by simp)) (x := '-') (by decide)
  have c2 := digit_ne (hi'.2.1 c' (by simp)) (x := '-') (by decide)
  have hneg : neg = neg' := by
    cases neg <;> cases neg' <;> simp only [Bool.false_eq_true, if_false, if_true, List.nil_append, List.cons_append, List.cons.injEq] at hs
    · rfl
    · exact absurd hs.1 c1
    · exact absurd hs.1.symm c2
    · rfl
  subst hneg
  have hs := List.append_cancel_left hs
  obtain ⟨s1, s2⟩ := split_unique _ _ _ _ hi.2.1 hi'.2.1 (fraction_noDigit f d e x hf he) (fraction_noDigit f' d' e' x' hf' he') hs
  have nodot : ∀ (e : List Char) (x : Int) (r : List Char), Spec.Exponent e x → e ≠ '.' :: r := by
    rintro e x r (⟨rfl, -⟩ | ⟨c, g, u, rfl, hc, -⟩) h
    · simp at h
    · simp only [List.cons.injEq] at h
      rcases hc with rfl | rfl <;> exact absurd h.1 (by decide)
  have hde : d = d' ∧ e = e' := by
    rcases hf with ⟨rfl, rfl⟩ | ⟨rfl, hd⟩ <;> rcases hf' with ⟨rfl, rfl⟩ | ⟨rfl, hd'⟩
    · exact ⟨rfl, s2⟩
    · exact absurd s2 (nodot e x _ he)
    · exact absurd s2.symm (nodot e' x' _ he')
    · simp only [List.cons_append, List.cons.injEq, true_and] at s2
      exact split_unique _ _ _ _ hd.2 hd'.2 (exponent_noDigit e x he) (exponent_noDigit e' x' he') s2
  obtain ⟨rfl, rfl⟩ := hde
  exact ⟨rfl, by rw [s1], rfl, exponent_unique e x x' he he'⟩

/-! ## What is written is read -/

theorem denotes_number (t : List Char) (q : Rat) (h : Dtoa.Spec.Denotes t q) :
    ∃ neg ds n x, Spec.Number t neg ds n x ∧ q = Spec.denoted neg ds n x := by
  obtain ⟨neg, i, f, d, e, x, rfl, hi, hf, he, -, rfl⟩ := h
  refine ⟨neg, i ++ d, d.length, x, ⟨i, f, d, e, rfl, hi, hf, ?_, rfl, rfl⟩, rfl⟩
  rcases he with ⟨rfl, rfl⟩ | ⟨u, rfl, hu, rfl⟩ | ⟨u, rfl, hu, rfl⟩
  · exact .inl ⟨rfl, rfl⟩
  · exact .inr ⟨'e', [], u, rfl, .inl rfl, hu, .inl ⟨.inl rfl, rfl⟩⟩
  · exact .inr ⟨'e', ['-'], u, rfl, .inl rfl, hu, .inr ⟨rfl, rfl⟩⟩

/-- The reader of a number that is not an integer, for C116. -/
def reader (s : Str) : Option Nat :=
  match readDouble s with
  | .ok b => some b
  | _ => none

theorem stops_nil : JsonText.Stops [] := by intro c h; simp at h

/-- How a text of the grammar that is not an integer goes through `ParseNumber`. -/
theorem readNum_text (t : List Char) (q : Rat) (h : Dtoa.Spec.Denotes t q) (b : Nat) (hb : readDouble t = .ok b) :
    JsonText.JVal reader t (.dbl b) ∧ JsonText.readNum reader t = .ok (.dbl b) [] := by
  obtain ⟨neg, i, f, d, e, x, rfl, hi, hf, he, hm, -⟩ := h
  have dig : ∀ u : List Char, Digits u → JsonText.Digits u := fun u hu => ⟨hu.1, fun c hc => isDigit_of (hu.2 c hc)⟩
  have hF : JsonText.Frac f := by
    rcases hf with ⟨rfl, -⟩ | ⟨rfl, hd⟩
    · exact .inl rfl
    · exact .inr ⟨d, rfl, dig d hd⟩
  have hE : JsonText.Expo e := by
    rcases he with ⟨rfl, -⟩ | ⟨u, rfl, hu, -⟩ | ⟨u, rfl, hu, -⟩
    · exact .inl rfl
    · exact .inr ⟨'e', [], u, rfl, .inl rfl, .inl rfl, dig u hu⟩
    · exact .inr ⟨'e', ['-'], u, rfl, .inl rfl, .inr (.inr rfl), dig u hu⟩
  have hV : reader (JsonText.sgn neg ++ (dec (value i) ++ (f ++ e))) = some b := by
    rw [← numeral_dec i hi]
    simp only [reader, JsonText.sgn, hb]
  have hc := JsonText.readNum_complete reader neg (value i) f e [] hF hE stops_nil
  have hj := JsonText.JVal.dbl neg (value i) f e b hF hE (.inr hm) hV
  rw [← numeral_dec i hi] at hc hj hV
  simp only [List.append_nil] at hc
  refine ⟨hj, ?_⟩
  rw [if_neg (by rintro ⟨-, rfl, rfl⟩; rcases hm with h | h <;> exact h rfl), hV] at hc
  exact hc

/-- C149, full statement: every double is written as a text that is read as the same double. -/
def C149_statement : Prop :=
  ∀ (u : Nat) (old : Nat → Char), Finite u → ∃ t n, Grisu.print u old = some (t, n) ∧ JsonText.readNum reader t = .ok (.dbl u) []

/-- **C149, partial** The full statement for doubles whose text has at most 53 bits of digits, of which the last one counts
10^-22 to 10^22. Missing: longer texts; of them some are read as a neighbour (`C149_violated`). -/
theorem C149_partial (u : Nat) (old : Nat → Char) (hu : Finite u) (t : Str) (len : Nat) (hp : Grisu.print u old = some (t, len))
    (neg : Bool) (ds : List Char) (n : Nat) (x : Int) (h : Spec.Number t neg ds n x) (hm : value ds < 2 ^ 53)
    (h1 : -22 ≤ x - n) (h2 : x - n ≤ 22) :
    readDouble t = .ok u ∧ JsonText.readNum reader t = .ok (.dbl u) [] ∧ JsonText.Okay (Grisu.written old) reader (.dbl u) := by
  obtain ⟨t', n', q, p1, p2, p3, p4, p5, -, p6⟩ := Grisu.C148 u hu old
  rw [hp] at p1
  simp only [Option.some.injEq, Prod.mk.injEq] at p1
  obtain ⟨rfl, rfl⟩ := p1
  obtain ⟨neg', ds', k', x', k1, k2⟩ := denotes_number t q p2
  obtain ⟨rfl, rfl, rfl, rfl⟩ := number_unique t _ _ _ _ _ _ _ _ h k1
  have hn : n ≤ 10 ^ 8 := by
    obtain ⟨i, f, d, e, rfl, -, hf, -, -, rfl⟩ := h
    rcases hf with ⟨-, rfl⟩ | ⟨rfl, -⟩
    · simp
    · simp only [List.length_append, List.length_cons] at p3; omega
  have hr := read_ok t neg ds n x h hm h1 h2 hn
  obtain ⟨q1, q2⟩ := denoted_lt (value ds) (x - n) hm h2
  have hfin := rnd_finite _ q1 q2
  obtain ⟨s1, s2, s3⟩ := signed_number neg _ hfin
  have hbest := rnd_best neg _ q1 q2 u hu
  have eq : q = (if neg then -1 else 1) * ((value ds : Nat) * 10 ^ (x - n)) := by
    rw [k2]; simp only [Spec.denoted]; grind
  rw [← eq] at hbest
  have hsign : neg = true ↔ u / 2 ^ 63 % 2 = 1 := by
    rw [← p5]
    obtain ⟨i, f, d, e, rfl, hi, -⟩ := h
    obtain ⟨c, r, rfl⟩ := List.exists_cons_of_ne_nil hi.1
    have := digit_ne (hi.2.1 c (by simp)) (x := '-') (by decide)
    cases neg <;> simp [this]
  have hnum : number (signed neg (rnd ((value ds : Nat) * 10 ^ (x - n)))) = number u := by
    by_cases hne : number (signed neg (rnd ((value ds : Nat) * 10 ^ (x - n)))) = number u
    · exact hne
    · have := p6 _ s1 hne
      grind
  have hu64 : u < 2 ^ 64 := hu.1
  have hmod : u % 2 ^ 63 < inf := by
    have := hu.2
    simp only [inf]; omega
  have hval : val (rnd ((value ds : Nat) * 10 ^ (x - n))) = val (u % 2 ^ 63) := by
    have e1 : signed neg (u % 2 ^ 63) = u := by
      simp only [signed]
      cases neg with
      | true => have := hsign.1 rfl; simp only [if_true]; omega
      | false =>
        have : ¬ u / 2 ^ 63 % 2 = 1 := fun h => absurd (hsign.2 h) (by decide)
        simp only [Bool.false_eq_true, if_false]; omega
    have e2 := (signed_number neg _ hmod).2.1
    rw [e1] at e2
    rw [s2, e2] at hnum
    cases neg
    · simpa using hnum
    · simp only [if_true] at hnum; grind
  have hbits := val_inj _ _ hfin hmod hval
  have hread : readDouble t = .ok u := by
    rw [hr, hbits]
    simp only [signed]
    cases neg with
    | true => have := hsign.1 rfl; simp only [if_true]; congr 1; omega
    | false =>
      have : ¬ u / 2 ^ 63 % 2 = 1 := fun h => absurd (hsign.2 h) (by decide)
      simp only [Bool.false_eq_true, if_false]; congr 1; omega
  obtain ⟨r1, r2⟩ := readNum_text t q p2 u hread
  refine ⟨hread, r2, ?_⟩
  simp only [JsonText.Okay]
  refine ⟨t, ?_, r1⟩
  simp only [Grisu.written]
  rw [if_pos ⟨hu.1, hu.2⟩, hp]
  rfl

/-- The double that was read. -/
def dblOf : JsonText.R Ipc.Json → Option Nat
  | .ok (.dbl d) _ => some d
  | _ => none

/-- **C149, violated** 970166.4882681987 is written with 16 digits, but read as the next larger double. -/
theorem C149_violated : ¬ C149_statement := by
  intro h
  obtain ⟨t, n, h1, h2⟩ := h 0x412d9b6cf9fe4a12 (fun _ => 'x') (by unfold Finite; decide)
  have e1 : Grisu.print 0x412d9b6cf9fe4a12 (fun _ => 'x') = some ("970166.4882681987".toList, 17) := by decide +kernel
  have e2 : dblOf (JsonText.readNum reader "970166.4882681987".toList) = some 0x412d9b6cf9fe4a13 := by decide +kernel
  rw [e1] at h1
  simp only [Option.some.injEq, Prod.mk.injEq] at h1
  rw [h1.1, h2] at e2
  exact absurd e2 (by decide)

/-- The hypotheses hold of -0.001 and of 12.5; and of a number with a sign in its exponent. -/
example : Finite 0xbf50624dd2f1a9fc ∧ (Grisu.print 0xbf50624dd2f1a9fc (fun _ => 'x')).map (·.1) = some "-0.001".toList ∧
    readDouble "-0.001".toList = .ok 0xbf50624dd2f1a9fc := by
  refine ⟨by unfold Finite; decide, by decide +kernel, by decide +kernel⟩
example : Spec.Number "-0.001".toList true "0001".toList 3 0 ∧ value "0001".toList < 2 ^ 53 ∧ (-22 : Int) ≤ 0 - (3 : Nat) :=
  ⟨⟨['0'], ".001".toList, "001".toList, [], by decide, by unfold Numeral; decide, .inr ⟨by decide, by unfold Digits; decide⟩, .inl ⟨rfl, rfl⟩, by decide,
    by decide⟩, by decide, by decide⟩
example : Spec.Number "125E+02".toList false "125".toList 0 2 ∧ readDouble "125E+02".toList = .ok 0x40c86a0000000000 :=
  ⟨⟨"125".toList, [], [], "E+02".toList, by decide, by unfold Numeral; decide, .inl ⟨rfl, rfl⟩,
    .inr ⟨'E', ['+'], "02".toList, by decide, .inr rfl, by unfold Digits; decide, .inl ⟨.inr rfl, by decide⟩⟩, by decide, by decide⟩, by decide +kernel⟩

end Verif.ReadDouble
