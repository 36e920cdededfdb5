import Verif.Lemmas.GrisuTotal
import Verif.Props.Dtoa
/-
C148: of all doubles, the one that was printed is the nearest to the number that its text denotes.
-/
namespace Verif.Grisu
open Verif.Itoa (Str)

namespace Spec

/-- Bits of a double that is neither infinite nor NaN (IEEE 754, binary64). -/
def Finite (u : Nat) : Prop := u < 2 ^ 64 ∧ u / 2 ^ 52 % 2 ^ 11 ≠ 2047

/-- The number that bits stand for: sign, exponent of eleven bits, fraction of 52 bits. -/
def number (u : Nat) : Rat :=
  (if u / 2 ^ 63 % 2 = 1 then -1 else 1) *
    (if u / 2 ^ 52 % 2 ^ 11 = 0 then ((u % 2 ^ 52 : Nat) : Rat) / 2 ^ 52 * 2 ^ (-1022 : Int)
     else (1 + ((u % 2 ^ 52 : Nat) : Rat) / 2 ^ 52) * 2 ^ (((u / 2 ^ 52 % 2 ^ 11 : Nat) : Int) - 1023))

/-- The distance of two numbers. -/
def dist (a b : Rat) : Rat := if a ≤ b then b - a else a - b

end Spec

/-! ## Bits -/

/-- The significand and the exponent of bits. -/
theorem bits_ok (u : Nat) (h : Spec.Finite u) : ∃ (f : Nat) (e : Int), ofBits (u % 2 ^ 63) = ⟨f, e⟩ ∧
    Spec.number u = (if u / 2 ^ 63 % 2 = 1 then -1 else 1) * ((f : Rat) * 2 ^ e) ∧
    f < 2 ^ 53 ∧ -1074 ≤ e ∧ e ≤ 971 ∧ (e ≠ -1074 → 2 ^ 52 ≤ f) ∧ (u % 2 ^ 63 ≠ 0 → 1 ≤ f) ∧ (u % 2 ^ 63 = 0 → f = 0) := by
  obtain ⟨h1, h2⟩ := h
  have e1 : u % 2 ^ 63 / 2 ^ 52 % 2 ^ 11 = u / 2 ^ 52 % 2 ^ 11 := by omega
  have e2 : u % 2 ^ 63 % 2 ^ 52 = u % 2 ^ 52 := by omega
  have e3 : u % 2 ^ 63 = u / 2 ^ 52 % 2 ^ 11 * 2 ^ 52 + u % 2 ^ 52 := by omega
  simp only [ofBits, Spec.number]
  rw [e1, e2, e3]
  have hb : u / 2 ^ 52 % 2 ^ 11 < 2 ^ 11 := Nat.mod_lt _ (by decide)
  have hm : u % 2 ^ 52 < 2 ^ 52 := Nat.mod_lt _ (by decide)
  generalize u / 2 ^ 52 % 2 ^ 11 = b at *
  generalize u % 2 ^ 52 = m at *
  by_cases h0 : b = 0
  · subst h0
    refine ⟨m, -1074, by simp, ?_, by omega, by omega, by omega, by omega, by omega, by omega⟩
    rw [if_pos rfl]
    congr 1
    have : (2 : Rat) ^ (-1022 : Int) = 2 ^ 52 * 2 ^ (-1074 : Int) := by decide +kernel
    rw [this]
    generalize (2 : Rat) ^ (-1074 : Int) = z
    have : (2 : Rat) ^ 52 = 4503599627370496 := by decide +kernel
    rw [this]
    grind
  · refine ⟨m + hidden, (b : Int) - 1075, by simp [h0], ?_, by simp only [hidden]; omega, by omega, by omega, by simp only [hidden]; omega,
      by simp only [hidden]; omega, by omega⟩
    rw [if_neg h0]
    congr 1
    have : (2 : Rat) ^ ((b : Int) - 1023) = 2 ^ (52 : Int) * 2 ^ ((b : Int) - 1075) := by
      rw [← Rat.zpow_add two_ne, show (52 : Int) + ((b : Int) - 1075) = (b : Int) - 1023 by omega]
    rw [this]
    generalize (2 : Rat) ^ ((b : Int) - 1075) = z
    have e4 : (2 : Rat) ^ 52 = 4503599627370496 := by decide +kernel
    have e5 : (2 : Rat) ^ (52 : Int) = 4503599627370496 := by decide +kernel
    have e6 : ((m + hidden : Nat) : Rat) = m + 4503599627370496 := by
      rw [Rat.natCast_add]; congr 1
    rw [e4, e5, e6]
    grind

/-! ## The nearest double -/

theorem pow_ge_one (n : Nat) : 1 ≤ 2 ^ n := Nat.pow_pos (by omega)

/-- Another double is at least one unit above, or below the lower boundary by as much as the boundary is below the double. -/
theorem apart (f : Nat) (e : Int) (h2 : f < 2 ^ 53) (hn : e ≠ -1074 → 2 ^ 52 ≤ f) (he : -1074 ≤ e) (h1 : 1 ≤ f) (neg : Bool) (g : Nat) (h : Int)
    (hg : g < 2 ^ 53) (hh : -1074 ≤ h) (hy : (if neg then -1 else 1) * ((g : Rat) * 2 ^ h) ≠ (f : Rat) * 2 ^ e) :
    ((f * 4 + 4 : Nat) : Rat) * 2 ^ (e - 2) ≤ (if neg then -1 else 1) * ((g : Rat) * 2 ^ h) ∨
    (if neg then -1 else 1) * ((g : Rat) * 2 ^ h) ≤ ((f * 4 - 2 * below f : Nat) : Rat) * 2 ^ (e - 2) := by
  have hb : 1 ≤ below f ∧ below f ≤ 2 := by simp only [below]; split <;> omega
  have ho := two_pos (e - 2)
  have ev : (2 : Rat) ^ e = 4 * 2 ^ (e - 2) := by
    have : (2 : Rat) ^ e = 2 ^ (2 : Int) * 2 ^ (e - 2) := by rw [← Rat.zpow_add two_ne, show (2 : Int) + (e - 2) = e by omega]
    rw [this]; congr 1
  have mono : ∀ a b : Nat, a ≤ b → (a : Rat) * 2 ^ (e - 2) ≤ (b : Rat) * 2 ^ (e - 2) := fun a b hab =>
    Rat.mul_le_mul_of_nonneg_right (nat_le hab) (Rat.le_of_lt ho)
  have c4 : ((4 : Nat) : Rat) = 4 := rfl
  cases neg with
  | true =>
    right
    have p1 : (0 : Rat) ≤ (g : Rat) * 2 ^ h := Rat.mul_nonneg (nat_le (Nat.zero_le g)) (Rat.le_of_lt (two_pos h))
    have p2 := mono 0 (f * 4 - 2 * below f) (by omega)
    have c0 : ((0 : Nat) : Rat) = 0 := rfl
    rw [c0] at p2
    simp only [if_true]
    grind
  | false =>
    simp only [Bool.false_eq_true, if_false, Rat.one_mul] at hy ⊢
    by_cases hhe : e ≤ h
    · obtain ⟨n, rfl⟩ : ∃ n : Nat, h = e + n := ⟨(h - e).toNat, by omega⟩
      have eg : (g : Rat) * 2 ^ (e + (n : Int)) = ((g * 2 ^ n * 4 : Nat) : Rat) * 2 ^ (e - 2) := by
        rw [Rat.zpow_add two_ne, ev, Rat.natCast_mul, Rat.natCast_mul, cast_pow2, c4]
        generalize (2 : Rat) ^ (n : Int) = z
        grind
      have ef : (f : Rat) * 2 ^ e = ((f * 4 : Nat) : Rat) * 2 ^ (e - 2) := by
        rw [ev, Rat.natCast_mul, c4]; grind
      rw [eg] at hy ⊢
      rw [ef] at hy
      have hne : g * 2 ^ n ≠ f := by
        intro h; rw [h] at hy; exact hy rfl
      rcases Nat.lt_or_ge f (g * 2 ^ n) with hl | hl
      · left; exact mono _ _ (by omega)
      · right; exact mono _ _ (by omega)
    · right
      have hf := hn (by omega)
      obtain ⟨n, rfl⟩ : ∃ n : Nat, e = h + (n + 1 : Nat) := ⟨(e - h - 1).toNat, by omega⟩
      have eg : (g : Rat) * 2 ^ h * (2 * ((2 ^ n : Nat) : Rat)) = (g : Rat) * 2 ^ (h + ((n + 1 : Nat) : Int)) := by
        rw [cast_pow2, show h + ((n + 1 : Nat) : Int) = h + ((n : Int) + 1) by omega, Rat.zpow_add two_ne, Rat.zpow_add_one two_ne]
        grind
      have hle : g * 4 ≤ (f * 4 - 2 * below f) * 2 := by
        by_cases hfh : f = hidden
        · have : below f = 1 := by simp only [below, if_pos hfh]
          simp only [hidden] at hfh
          omega
        · have : below f = 2 := by simp only [below, if_neg hfh]
          simp only [hidden] at hfh
          omega
      have hle2 : (f * 4 - 2 * below f) * 2 * 1 ≤ (f * 4 - 2 * below f) * 2 * 2 ^ n := Nat.mul_le_mul_left _ (pow_ge_one n)
      have hm := mono _ _ (Nat.le_trans hle (by omega : (f * 4 - 2 * below f) * 2 ≤ (f * 4 - 2 * below f) * 2 * 2 ^ n))
      rw [ev] at eg
      have c2 : ((2 : Nat) : Rat) = 2 := rfl
      simp only [Rat.natCast_mul (b := 2 ^ n), Rat.natCast_mul (b := 2), Rat.natCast_mul (a := g), c2, c4] at hm
      have hp : (0 : Rat) < 2 * ((2 ^ n : Nat) : Rat) := by
        have := nat_le (pow_ge_one n)
        have c1 : ((1 : Nat) : Rat) = 1 := rfl
        grind
      refine Rat.le_of_mul_le_mul_right (c := 2 * ((2 ^ n : Nat) : Rat)) ?_ hp
      rw [eg]
      grind

/-- A number between the boundaries of a double is nearest to it. -/
theorem nearest (f b : Nat) (o x y : Rat) (ho : 0 < o) (hb : b = 1 ∨ b = 2) (h1 : 1 ≤ f)
    (hx1 : ((f * 4 - b : Nat) : Rat) * o < x) (hx2 : x < ((f * 4 + 2 : Nat) : Rat) * o)
    (hy : ((f * 4 + 4 : Nat) : Rat) * o ≤ y ∨ y ≤ ((f * 4 - 2 * b : Nat) : Rat) * o) : Spec.dist x ((f : Rat) * (4 * o)) < Spec.dist x y := by
  have c2 : ((2 : Nat) : Rat) = 2 := rfl
  have c4 : ((4 : Nat) : Rat) = 4 := rfl
  have c1 : ((1 : Nat) : Rat) = 1 := rfl
  have e1 : ((f * 4 - b : Nat) : Rat) + (b : Rat) = (f : Rat) * 4 := by
    rw [← Rat.natCast_add, show f * 4 - b + b = f * 4 by omega, Rat.natCast_mul, c4]
  have e2 : ((f * 4 - 2 * b : Nat) : Rat) + 2 * (b : Rat) = (f : Rat) * 4 := by
    rw [← c2, ← Rat.natCast_mul, ← Rat.natCast_add, show f * 4 - 2 * b + 2 * b = f * 4 by omega, Rat.natCast_mul, c4]
  have e3 : ((f * 4 + 2 : Nat) : Rat) = (f : Rat) * 4 + 2 := by rw [Rat.natCast_add, Rat.natCast_mul, c4, c2]
  have e4 : ((f * 4 + 4 : Nat) : Rat) = (f : Rat) * 4 + 4 := by rw [Rat.natCast_add, Rat.natCast_mul, c4]
  have hbo : (b : Rat) = 1 ∨ (b : Rat) = 2 := by rcases hb with rfl | rfl <;> simp [c1, c2]
  rw [e3] at hx2
  rw [e4] at hy
  generalize ((f * 4 - b : Nat) : Rat) = p at *
  generalize ((f * 4 - 2 * b : Nat) : Rat) = q at *
  generalize (b : Rat) = b' at *
  generalize (f : Rat) = f' at *
  have ep : p = f' * 4 - b' := by grind
  have eq' : q = f' * 4 - 2 * b' := by grind
  subst ep eq'
  simp only [Spec.dist]
  rcases hbo with rfl | rfl <;> rcases hy with hy | hy <;> split <;> split <;> grind

/-! ## Digits and powers -/

theorem digit_char (d : Int) (h0 : 0 ≤ d) (h9 : d ≤ 9) : (digit d).toNat = 48 + d.toNat ∧ (d ≠ 0 → digit d ≠ '0') := by
  obtain ⟨n, rfl⟩ : ∃ n : Nat, d = n := ⟨d.toNat, by omega⟩
  have : ∀ n : Fin 10, (digit (n.1 : Int)).toNat = 48 + n.1 ∧ ((n.1 : Int) ≠ 0 → digit (n.1 : Int) ≠ '0') := by decide +kernel
  exact this ⟨n, by omega⟩

theorem good_text (r : List Int) (h : Good r) :
    (Itoa.Spec.value (r.reverse.map digit) : Int) = val r ∧ (∀ c ∈ r.reverse.map digit, 48 ≤ c.toNat ∧ c.toNat ≤ 57) ∧
      (r.reverse.map digit).head? ≠ some '0' ∧ (10 : Int) ^ (r.length - 1) ≤ val r := by
  induction r with
  | nil => exact absurd h (by simp [Good])
  | cons d r ih =>
    rw [List.reverse_cons, List.map_append]
    simp only [List.map_cons, List.map_nil]
    have hval : ∀ c : Char, Itoa.Spec.value [c] = c.toNat - 48 := fun c => by simp [Itoa.Spec.value]
    cases r with
    | nil =>
      obtain ⟨h1, h9⟩ := h
      obtain ⟨a, b⟩ := digit_char d (by omega) h9
      refine ⟨by simp [hval, a, val]; omega, by simp [a]; omega, by simpa using b (by omega), by simp [val]; omega⟩
    | cons e r =>
      obtain ⟨h0, h9, hr⟩ := h
      obtain ⟨a, b⟩ := digit_char d h0 h9
      obtain ⟨i1, i2, i3, i4⟩ := ih hr
      refine ⟨?_, ?_, ?_, ?_⟩
      · rw [Dtoa.value_append, hval, a]
        simp only [List.length_singleton, Nat.pow_one, val] at i1 ⊢
        omega
      · intro c hc
        rcases List.mem_append.1 hc with hc | hc
        · exact i2 c hc
        · rw [List.mem_singleton.1 hc, a]; omega
      · obtain ⟨c, l, hc⟩ : ∃ c l, (e :: r).reverse.map digit = c :: l := List.exists_cons_of_ne_nil (by simp)
        rw [hc] at i3 ⊢
        exact i3
      · simp only [List.length_cons, Nat.add_sub_cancel] at i4 ⊢
        rw [Int.pow_succ]
        simp only [val] at i4 ⊢
        omega

theorem zpow_mono (a : Nat) (ha : 1 ≤ a) (h0 : (a : Rat) ≠ 0) (hp : ∀ z : Int, (0 : Rat) < (a : Rat) ^ z) (z w : Int) (h : z ≤ w) : (a : Rat) ^ z ≤ (a : Rat) ^ w := by
  obtain ⟨n, rfl⟩ : ∃ n : Nat, w = z + n := ⟨(w - z).toNat, by omega⟩
  rw [Rat.zpow_add h0, Rat.zpow_natCast, ← Rat.natCast_pow]
  have h1 : 1 ≤ a ^ n := Nat.pow_pos ha
  have h1 := nat_le h1
  have c1 : ((1 : Nat) : Rat) = 1 := rfl
  rw [c1] at h1
  have := Rat.mul_le_mul_of_nonneg_left h1 (Rat.le_of_lt (hp z))
  rwa [Rat.mul_one] at this

theorem ten_mono (z w : Int) (h : z ≤ w) : (10 : Rat) ^ z ≤ 10 ^ w := zpow_mono 10 (by omega) ten_ne ten_pos z w h
theorem two_mono (z w : Int) (h : z ≤ w) : (2 : Rat) ^ z ≤ 2 ^ w := zpow_mono 2 (by omega) two_ne two_pos z w h

/-- The digits and the power of ten are such that the text can be written (C147). -/
theorem grisu_found (f : Nat) (e : Int) (h1 : 1 ≤ f) (h2 : f < 2 ^ 53) (he : -1074 ≤ e) (he2 : e ≤ 971) (hn : e ≠ -1074 → 2 ^ 52 ≤ f) :
    ∃ ds K, grisu2 ⟨f, e⟩ = some (ds, K) ∧ Dtoa.Found (ds.map digit) ∧ -324 ≤ K ∧ ((ds.map digit).length : Int) + K ≤ 1000 ∧
      ((f * 4 - below f : Nat) : Rat) * 2 ^ (e - 2) < (Itoa.Spec.value (ds.map digit) : Nat) * 10 ^ K ∧
      ((Itoa.Spec.value (ds.map digit) : Nat) : Rat) * 10 ^ K < ((f * 4 + 2 : Nat) : Rat) * 2 ^ (e - 2) := by
  obtain ⟨r, K, a, g, l, b1, b2, b3⟩ := grisu_ok f e h1 h2 he he2 hn
  obtain ⟨t1, t2, t3, t4⟩ := good_text r g
  have ev : ((Itoa.Spec.value (r.reverse.map digit) : Nat) : Rat) = (val r : Rat) := by rw [← t1, Rat.intCast_natCast]
  have hlen : 0 < r.length := List.length_pos_iff.2 (good_ne g)
  refine ⟨r.reverse, K, a, ⟨by simpa using l, ⟨by simpa using good_ne g, t2⟩, t3⟩, ?_, ?_, by rw [ev]; exact b1, by rw [ev]; exact b2⟩
  · refine Int.not_lt.1 fun hK => ?_
    have e1 : (10 : Rat) * 10 ^ K = 10 ^ (K + 1) := by rw [Rat.zpow_add_one ten_ne, Rat.mul_comm]
    rw [e1] at b3
    have m1 := ten_mono (K + 1) (-324) (by omega)
    have m2 := two_mono (-1075) (e - 1) (by omega)
    have m3 : (10 : Rat) ^ (-324 : Int) < 2 ^ (-1075 : Int) := by decide +kernel
    grind
  · simp only [List.length_map, List.length_reverse]
    refine Int.not_lt.1 fun hK => ?_
    have i := int_le t4
    have ei : ((10 ^ (r.length - 1) : Int) : Rat) = 10 ^ ((r.length - 1 : Nat) : Int) := by
      rw [← cast_pow10, ← Rat.intCast_natCast]; simp
    rw [ei] at i
    have i2 := Rat.mul_le_mul_of_nonneg_right i (Rat.le_of_lt (ten_pos K))
    rw [← Rat.zpow_add ten_ne] at i2
    have m1 := ten_mono 309 (((r.length - 1 : Nat) : Int) + K) (by omega)
    have m2 := two_mono (e - 2) 969 (by omega)
    have m3 := nat_le (show f * 4 + 2 ≤ 2 ^ 55 by omega)
    have m4 := Rat.mul_le_mul_of_nonneg_right m3 (Rat.le_of_lt (two_pos (e - 2)))
    have m5 := Rat.mul_le_mul_of_nonneg_left m2 (nat_le (Nat.zero_le (2 ^ 55)))
    have m6 : ((2 ^ 55 : Nat) : Rat) * 2 ^ (969 : Int) < 10 ^ (309 : Int) := by decide +kernel
    have c0 : ((0 : Nat) : Rat) = 0 := rfl
    grind

theorem dist_neg (a b : Rat) : Spec.dist (-1 * a) b = Spec.dist a (-1 * b) := by
  simp only [Spec.dist]
  split <;> split <;> grind

theorem denotes_head (t : List Char) (x : Rat) (h : Dtoa.Spec.Denotes t x) (hx : 0 < x) : t.head? ≠ some '-' := by
  obtain ⟨neg, i, f, d, e, k, rfl, ⟨hne, hi, -⟩, -, -, -, rfl⟩ := h
  cases neg with
  | true =>
    exfalso
    simp only [if_true] at hx
    have p : (0 : Rat) ≤ ((Itoa.Spec.value (i ++ d) : Nat) : Rat) * 10 ^ (k - d.length) :=
      Rat.mul_nonneg (nat_le (Nat.zero_le _)) (Rat.le_of_lt (ten_pos _))
    grind
  | false =>
    obtain ⟨c, l, rfl⟩ := List.exists_cons_of_ne_nil hne
    intro hc
    simp at hc
    have := (hi c (by simp)).1
    rw [hc] at this
    exact absurd this (by decide)

theorem fold_lt (l : List Char) (h : ∀ c ∈ l, 48 ≤ c.toNat ∧ c.toNat ≤ 57) : Itoa.Spec.value l < 10 ^ l.length := by
  induction l with
  | nil => simp [Itoa.Spec.value]
  | cons c l ih =>
    have e : Itoa.Spec.value (c :: l) = Itoa.Spec.value [c] * 10 ^ l.length + Itoa.Spec.value l := Dtoa.value_append [c] l
    have hc := h c (by simp)
    have e2 : Itoa.Spec.value [c] = c.toNat - 48 := by simp [Itoa.Spec.value]
    have := ih (fun d hd => h d (by simp [hd]))
    have h9 : (c.toNat - 48) * 10 ^ l.length ≤ 9 * 10 ^ l.length := Nat.mul_le_mul_right _ (by omega)
    rw [e, e2, List.length_cons, Nat.pow_succ]
    omega

/-- C148: every finite double is printed, as a JSON number of at most seventeen significant digits, and no other double is as
near to the number that the text denotes; so a reader that rounds to the nearest double gets the same double back. -/
theorem C148 (u : Nat) (hu : Spec.Finite u) (old : Nat → Char) :
    ∃ (t : Str) (n : Nat) (x : Rat), print u old = some (t, n) ∧ Dtoa.Spec.Denotes t x ∧ t.length ≤ 25 ∧ n ≤ 25 ∧
      (t.head? = some '-' ↔ u / 2 ^ 63 % 2 = 1) ∧
      (∃ (m : Nat) (k : Int), m < 10 ^ 17 ∧ (x = (m : Rat) * 10 ^ k ∨ x = -((m : Rat) * 10 ^ k))) ∧
      ∀ w, Spec.Finite w → Spec.number w ≠ Spec.number u → Spec.dist x (Spec.number u) < Spec.dist x (Spec.number w) := by
  obtain ⟨f, e, hb, hnum, h2, he, he2, hn, h1, h0⟩ := bits_ok u hu
  by_cases hz : u % 2 ^ 63 = 0
  · obtain ⟨z1, z2, z3⟩ := Dtoa.C147_zero (u / 2 ^ 63 % 2 = 1) old
    have hv : Spec.number u = 0 := by
      rw [hnum, h0 hz, show ((0 : Nat) : Rat) = 0 from rfl, Rat.zero_mul, Rat.mul_zero]
    refine ⟨_, _, 0, by simp only [print, if_pos hz], z1, ?_, z3, ?_, ⟨0, 0, by decide, .inl ?_⟩, ?_⟩
    · simp only [Dtoa.dtoa]; split <;> decide
    · rw [z2]
      by_cases hs : u / 2 ^ 63 % 2 = 1 <;> simp [hs]
    · rw [show ((0 : Nat) : Rat) = 0 from rfl, Rat.zero_mul]
    · intro w _ hne
      rw [hv] at hne ⊢
      simp only [Spec.dist]
      split <;> split <;> grind
  · have h1 := h1 hz
    obtain ⟨ds, K, g1, g2, g3, g4, g5, g6⟩ := grisu_found f e h1 h2 he he2 hn
    obtain ⟨c1, c2, c3⟩ := Dtoa.C147_number (u / 2 ^ 63 % 2 = 1) (ds.map digit) K old g2 g3 g4
    have hlt : Itoa.Spec.value (ds.map digit) < 10 ^ 17 :=
      Nat.lt_of_lt_of_le (fold_lt _ g2.2.1.2) (Nat.pow_le_pow_right (by omega) g2.1)
    have hpos : (0 : Rat) < (Itoa.Spec.value (ds.map digit) : Nat) * 10 ^ K := by
      have : (0 : Rat) ≤ ((f * 4 - below f : Nat) : Rat) * 2 ^ (e - 2) := Rat.mul_nonneg (nat_le (Nat.zero_le _)) (Rat.le_of_lt (two_pos _))
      grind
    have ev : (2 : Rat) ^ e = 4 * 2 ^ (e - 2) := by
      have : (2 : Rat) ^ e = 2 ^ (2 : Int) * 2 ^ (e - 2) := by rw [← Rat.zpow_add two_ne, show (2 : Int) + (e - 2) = e by omega]
      rw [this]; congr 1
    have hbel : below f = 1 ∨ below f = 2 := by simp only [below]; split <;> simp
    have near : ∀ y : Rat, (∃ (neg : Bool) (g : Nat) (h : Int), y = (if neg then -1 else 1) * ((g : Rat) * 2 ^ h) ∧ g < 2 ^ 53 ∧ -1074 ≤ h) →
        y ≠ (f : Rat) * 2 ^ e → Spec.dist ((Itoa.Spec.value (ds.map digit) : Nat) * 10 ^ K) ((f : Rat) * 2 ^ e) <
          Spec.dist ((Itoa.Spec.value (ds.map digit) : Nat) * 10 ^ K) y := by
      rintro y ⟨neg, g, h, rfl, hg, hh⟩ hne
      have := apart f e h2 hn he h1 neg g h hg hh hne
      rw [ev]
      exact nearest f (below f) (2 ^ (e - 2)) _ _ (two_pos _) hbel h1 g5 g6 this
    refine ⟨_, _, _, by simp only [print, if_neg hz, hb, g1, Option.map_some], c1, c2, c3, ?_, ⟨_, K, hlt, ?_⟩, ?_⟩
    · by_cases hs : u / 2 ^ 63 % 2 = 1
      · simp [hs, Dtoa.dtoa]
      · simp only [hs, iff_false]
        simp only [hs, decide_false, Bool.false_eq_true, if_false, Rat.one_mul] at c1
        exact denotes_head _ _ c1 hpos
    · by_cases hs : u / 2 ^ 63 % 2 = 1
      · right; simp only [hs, decide_true, if_true]; grind
      · left; simp only [hs, decide_false, Bool.false_eq_true, if_false, Rat.one_mul]
    · intro w hw hne
      obtain ⟨g, h, -, wnum, hg, hh, -⟩ := bits_ok w hw
      rw [hnum, wnum] at hne
      rw [hnum, wnum]
      by_cases hs : u / 2 ^ 63 % 2 = 1
      · simp only [hs, decide_true, if_true] at hne ⊢
        have := near (-1 * ((if w / 2 ^ 63 % 2 = 1 then -1 else 1) * ((g : Rat) * 2 ^ h)))
          (by
            by_cases ht : w / 2 ^ 63 % 2 = 1
            · exact ⟨false, g, h, by simp only [ht, if_true, Bool.false_eq_true, if_false]; grind, hg, hh⟩
            · exact ⟨true, g, h, by simp only [ht, if_false, if_true]; grind, hg, hh⟩)
          (by intro he; apply hne; rw [← he]; grind)
        rw [Rat.mul_assoc, dist_neg, dist_neg]
        have e3 : -1 * (-1 * ((f : Rat) * 2 ^ e)) = (f : Rat) * 2 ^ e := by grind
        rw [e3]
        exact this
      · simp only [hs, decide_false, Bool.false_eq_true, if_false, Rat.one_mul] at hne ⊢
        refine near _ ⟨decide (w / 2 ^ 63 % 2 = 1), g, h, ?_, hg, hh⟩ hne
        by_cases ht : w / 2 ^ 63 % 2 = 1 <;> simp [ht]

/-- `WriteDouble`, writer.h:317-341, without the flag for infinities: nothing for infinities and NaN. -/
def written (old : Nat → Char) (u : Nat) : Option Str := if u < 2 ^ 64 ∧ u / 2 ^ 52 % 2 ^ 11 ≠ 2047 then (print u old).map (·.1) else none

/-- C148: what is written for doubles is as C146 assumes it to be. -/
theorem C148_reserved (old : Nat → Char) : JsonBuffer.Dtoa (written old) := by
  intro u l hl
  simp only [written] at hl
  split at hl
  · next h =>
    obtain ⟨t, n, x, h1, h2, h3, -⟩ := C148 u h old
    rw [h1] at hl
    simp only [Option.map_some, Option.some.injEq] at hl
    subst hl
    exact ⟨h3, Dtoa.denotes_no_nul _ _ h2⟩
  · simp at hl

/-- An entry of the table is the power of ten nearest to it with 64 bits: `2 |f 2^e - 10^k| ≤ 2^e` for the entry `i` with `k = 8 i - 348`, both sides
multiplied by `10^348 2^1220`. -/
def powerNearest (i : Nat) : Bool :=
  match powerAt i with
  | none => false
  | some c => decide (2 ^ 63 ≤ c.f ∧ c.f < 2 ^ 64 ∧
      2 * (c.f * 2 ^ (c.e + 1220).toNat * 10 ^ 348) ≤ 2 * (10 ^ (8 * i) * 2 ^ 1220) + 2 ^ (c.e + 1220).toNat * 10 ^ 348 ∧
      2 * (10 ^ (8 * i) * 2 ^ 1220) ≤ 2 * (c.f * 2 ^ (c.e + 1220).toNat * 10 ^ 348) + 2 ^ (c.e + 1220).toNat * 10 ^ 348)

/-- C148: the table of powers of ten is right to the last bit. -/
theorem C148_powers : ∀ i, i < 87 → powerNearest i = true := by
  have h : (List.range 87).all powerNearest = true := by decide +kernel
  intro i hi
  exact List.all_eq_true.mp h i (List.mem_range.mpr hi)

/-- The hypothesis holds of the smallest and the largest double, of one tenth and of a power of two, where the boundary
below is nearer. -/
example : Spec.Finite 1 ∧ Spec.Finite 0x7fefffffffffffff ∧ Spec.Finite 0xbfb999999999999a ∧ Spec.Finite 0x4340000000000000 ∧
    ¬ Spec.Finite 0x7ff0000000000000 := by unfold Spec.Finite; decide
example : (print 1 (fun _ => 'x')).map (·.1) = some "5e-324".toList := by decide +kernel
example : (print 0x7fefffffffffffff (fun _ => 'x')).map (·.1) = some "1.7976931348623157e308".toList := by decide +kernel
example : (print 0xbfb999999999999a (fun _ => 'x')).map (·.1) = some "-0.1".toList := by decide +kernel
example : (print 0x4340000000000000 (fun _ => 'x')).map (·.1) = some "9007199254740992.0".toList := by decide +kernel
example : Spec.number 0xbfb999999999999a = -3602879701896397 / 36028797018963968 := by decide +kernel

end Verif.Grisu
