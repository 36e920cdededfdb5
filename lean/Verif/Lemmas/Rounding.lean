import Verif.Model.ReadDouble
import Verif.Props.Grisu
/-
Lemmas for C149: rounding of a number gives the nearest double.
-/
namespace Verif.ReadDouble
open Verif.Grisu (two_ne ten_ne two_pos ten_pos cast_pow2 cast_pow10 nat_le nat_lt two_mono)
open Verif.Grisu.Spec (Finite number dist)

theorem den_pos (q : Rat) : (0 : Rat) < (q.den : Rat) := by
  have := nat_lt (Nat.pos_of_ne_zero q.den_nz)
  exact this

/-- A number that is not negative, as a fraction. -/
theorem frac (q : Rat) (h : 0 ≤ q) : q * (q.den : Rat) = (q.num.natAbs : Rat) := by
  have h1 : 0 ≤ q.num := Rat.num_nonneg.2 h
  have h2 := Rat.num_divInt_den q
  rw [Rat.divInt_eq_div] at h2
  have h3 : (q.num : Rat) = ((q.num.natAbs : Nat) : Rat) := by
    rw [← Rat.intCast_natCast]; congr 1; omega
  have h4 : ((q.den : Int) : Rat) = (q.den : Rat) := Rat.intCast_natCast _
  rw [h3, h4] at h2
  have hd := den_pos q
  have h5 : (q.den : Rat) ≠ 0 := by intro h; rw [h] at hd; exact absurd hd (by decide)
  generalize (q.num.natAbs : Rat) = a at *
  generalize (q.den : Rat) = d at *
  rw [← h2, Rat.div_mul_cancel h5]

/-- The largest power of two. -/
theorem ilog_ok (q : Rat) (h : 0 < q) : (2 : Rat) ^ ilog q ≤ q ∧ q < 2 ^ (ilog q + 1) := by
  have hf := frac q (Rat.le_of_lt h)
  have hd := den_pos q
  have hn : q.num.natAbs ≠ 0 := by
    intro h0
    rw [h0] at hf
    have := Rat.mul_pos h hd
    rw [hf] at this
    exact absurd this (by decide)
  have a1 := nat_le (Nat.log2_self_le hn)
  have a2 := nat_lt (Nat.lt_log2_self (n := q.num.natAbs))
  have b1 := nat_le (Nat.log2_self_le q.den_nz)
  have b2 := nat_lt (Nat.lt_log2_self (n := q.den))
  rw [cast_pow2] at a1 a2 b1 b2
  simp only [ilog]
  generalize (q.num.natAbs : Rat) = n at *
  generalize (q.den : Rat) = d at *
  generalize Nat.log2 q.num.natAbs = x at *
  generalize Nat.log2 q.den = y at *
  have c1 : (2 : Rat) ^ ((x + 1 : Nat) : Int) = 2 ^ ((x : Int) - y + 1) * 2 ^ (y : Int) := by
    rw [← Rat.zpow_add two_ne, show ((x + 1 : Nat) : Int) = (x : Int) - y + 1 + y by omega]
  have c2 : (2 : Rat) ^ (x : Int) = 2 ^ ((x : Int) - y - 1) * 2 ^ ((y + 1 : Nat) : Int) := by
    rw [← Rat.zpow_add two_ne, show (x : Int) - y - 1 + ((y + 1 : Nat) : Int) = (x : Int) by omega]
  have p1 := two_pos ((x : Int) - y + 1)
  have p2 := two_pos ((x : Int) - y - 1)
  have up : q < 2 ^ ((x : Int) - y + 1) := by
    refine Rat.lt_of_mul_lt_mul_right (c := d) ?_ (Rat.le_of_lt hd)
    rw [hf]
    have := Rat.mul_le_mul_of_nonneg_left b1 (Rat.le_of_lt p1)
    rw [← c1] at this
    grind
  have lo : 2 ^ ((x : Int) - y - 1) ≤ q := by
    refine Rat.le_of_mul_le_mul_right (c := d) ?_ hd
    rw [hf]
    have := Rat.mul_lt_mul_of_pos_left b2 p2
    rw [← c2] at this
    grind
  split
  · next h1 => exact ⟨h1, up⟩
  · next h1 =>
    refine ⟨lo, ?_⟩
    rw [show (x : Int) - y - 1 + 1 = (x : Int) - y by omega]
    grind

/-- The nearest integer is not more than one half away. -/
theorem half_ok (r : Rat) (h : 0 ≤ r) : 2 * (halfEven r : Rat) ≤ 2 * r + 1 ∧ 2 * r ≤ 2 * (halfEven r : Rat) + 1 := by
  have hf := frac r h
  have hd := den_pos r
  have hm := Nat.div_add_mod r.num.natAbs r.den
  have hlt := Nat.mod_lt r.num.natAbs (Nat.pos_of_ne_zero r.den_nz)
  simp only [halfEven]
  generalize r.num.natAbs = a at *
  generalize r.den = d at *
  generalize a / d = n at *
  generalize a % d = m at *
  have e : (a : Rat) = d * n + m := by rw [← hm, Rat.natCast_add, Rat.natCast_mul]
  have p0 : (0 : Rat) ≤ m := nat_le (Nat.zero_le m)
  have c1 : ((1 : Nat) : Rat) = 1 := rfl
  have c2 : ((2 : Nat) : Rat) = 2 := rfl
  split
  · next hc =>
    have h2 : 2 * m ≤ d := by omega
    have h2 := nat_le h2
    rw [Rat.natCast_mul, c2] at h2
    refine ⟨Rat.le_of_mul_le_mul_right (c := (d : Rat)) ?_ hd, Rat.le_of_mul_le_mul_right (c := (d : Rat)) ?_ hd⟩ <;> grind
  · next hc =>
    have h2 : d ≤ 2 * m := by omega
    have h2 := nat_le h2
    have h3 := nat_lt hlt
    rw [Rat.natCast_mul, c2] at h2
    rw [Rat.natCast_add, c1]
    refine ⟨Rat.le_of_mul_le_mul_right (c := (d : Rat)) ?_ hd, Rat.le_of_mul_le_mul_right (c := (d : Rat)) ?_ hd⟩ <;> grind

/-- No integer is nearer. -/
theorem half_ge (r : Rat) (h : 0 ≤ r) (k : Nat) (hk : (k : Rat) ≤ r) : k ≤ halfEven r := by
  have := (half_ok r h).2
  have : (2 * k : Nat) ≤ 2 * halfEven r + 1 := by
    refine Rat.natCast_le_natCast.1 ?_
    rw [Rat.natCast_mul, Rat.natCast_add, Rat.natCast_mul]
    have c1 : ((1 : Nat) : Rat) = 1 := rfl
    have c2 : ((2 : Nat) : Rat) = 2 := rfl
    grind
  omega

theorem half_le (r : Rat) (h : 0 ≤ r) (k : Nat) (hk : r ≤ (k : Rat)) : halfEven r ≤ k := by
  have := (half_ok r h).1
  have : (2 * halfEven r : Nat) ≤ 2 * k + 1 := by
    refine Rat.natCast_le_natCast.1 ?_
    rw [Rat.natCast_mul, Rat.natCast_add, Rat.natCast_mul]
    have c1 : ((1 : Nat) : Rat) = 1 := rfl
    have c2 : ((2 : Nat) : Rat) = 2 := rfl
    grind
  omega

theorem half_nearest (r : Rat) (h : 0 ≤ r) (k : Nat) : dist r (halfEven r) ≤ dist r k := by
  obtain ⟨h1, h2⟩ := half_ok r h
  rcases Nat.lt_trichotomy k (halfEven r) with hl | hl | hl
  · have := nat_le (show k + 1 ≤ halfEven r from hl)
    rw [Rat.natCast_add] at this
    have c1 : ((1 : Nat) : Rat) = 1 := rfl
    simp only [dist]
    split <;> split <;> grind
  · rw [hl]; exact Rat.le_refl
  · have := nat_le (show halfEven r + 1 ≤ k from hl)
    rw [Rat.natCast_add] at this
    have c1 : ((1 : Nat) : Rat) = 1 := rfl
    simp only [dist]
    split <;> split <;> grind

/-- The significand and the exponent of a rounded number. -/
theorem rnd_parts (q : Rat) (h : 0 < q) : -1074 ≤ expo q ∧ halfEven (q * 2 ^ (-expo q)) ≤ 2 ^ 53 ∧
    (expo q ≠ -1074 → 2 ^ 52 ≤ halfEven (q * 2 ^ (-expo q)) ∧ (2 : Rat) ^ (52 : Int) * 2 ^ expo q ≤ q) := by
  obtain ⟨l1, l2⟩ := ilog_ok q h
  have hp := two_pos (-expo q)
  have h0 : 0 ≤ q * 2 ^ (-expo q) := Rat.le_of_lt (Rat.mul_pos h hp)
  have he : expo q = max (-1074) (ilog q - 52) := rfl
  refine ⟨by omega, ?_, fun hne => ?_⟩
  · refine half_le _ h0 _ ?_
    rw [cast_pow2]
    have h1 : q * 2 ^ (-expo q) ≤ 2 ^ (ilog q + 1) * 2 ^ (-expo q) := Rat.mul_le_mul_of_nonneg_right (Rat.le_of_lt l2) (Rat.le_of_lt hp)
    rw [← Rat.zpow_add two_ne] at h1
    exact Rat.le_trans h1 (two_mono _ _ (by omega))
  · have e1 : (2 : Rat) ^ ilog q = 2 ^ (52 : Int) * 2 ^ expo q := by
      rw [← Rat.zpow_add two_ne, show (52 : Int) + expo q = ilog q by omega]
    refine ⟨half_ge _ h0 _ ?_, by rw [← e1]; exact l1⟩
    rw [cast_pow2]
    have h1 : 2 ^ ilog q * 2 ^ (-expo q) ≤ q * 2 ^ (-expo q) := Rat.mul_le_mul_of_nonneg_right l1 (Rat.le_of_lt hp)
    rw [← Rat.zpow_add two_ne] at h1
    exact Rat.le_trans (two_mono _ _ (by omega)) h1

/-- The value of bits that are put together. -/
theorem val_bits (e : Int) (m : Nat) (he : -1074 ≤ e) (hm : m ≤ 2 ^ 53) (hn : e ≠ -1074 → 2 ^ 52 ≤ m) (hb : (e + 1074).toNat * 2 ^ 52 + m < inf) :
    val ((e + 1074).toNat * 2 ^ 52 + m) = (m : Rat) * 2 ^ e := by
  obtain ⟨n, rfl⟩ : ∃ n : Nat, e = (n : Int) - 1074 := ⟨(e + 1074).toNat, by omega⟩
  have e0 : ((n : Int) - 1074 + 1074).toNat = n := by omega
  rw [e0] at hb ⊢
  simp only [inf] at hb
  simp only [val, Grisu.ofBits, Grisu.hidden]
  by_cases h1 : m < 2 ^ 52
  · have : n = 0 := by
      rcases Nat.eq_zero_or_pos n with h | h
      · exact h
      · exact absurd (hn (by omega)) (by omega)
    subst this
    have b1 : (0 * 2 ^ 52 + m) / 2 ^ 52 % 2 ^ 11 = 0 := by omega
    have b2 : (0 * 2 ^ 52 + m) % 2 ^ 52 = m := by omega
    rw [b1, b2]
    rfl
  · by_cases h2 : m < 2 ^ 53
    · have b1 : (n * 2 ^ 52 + m) / 2 ^ 52 % 2 ^ 11 = n + 1 := by omega
      have b2 : (n * 2 ^ 52 + m) % 2 ^ 52 = m - 2 ^ 52 := by omega
      rw [b1, b2, if_pos (by omega)]
      rw [show m - 2 ^ 52 + 4503599627370496 = m by omega, show ((n + 1 : Nat) : Int) - 1075 = (n : Int) - 1074 by omega]
    · have hm : m = 2 ^ 53 := by omega
      subst hm
      have b1 : (n * 2 ^ 52 + 2 ^ 53) / 2 ^ 52 % 2 ^ 11 = n + 2 := by omega
      have b2 : (n * 2 ^ 52 + 2 ^ 53) % 2 ^ 52 = 0 := by omega
      rw [b1, b2, if_pos (by omega)]
      rw [show 0 + 4503599627370496 = 2 ^ 52 by rfl, cast_pow2, cast_pow2, ← Rat.zpow_add two_ne, ← Rat.zpow_add two_ne,
        show ((52 : Nat) : Int) + (((n + 2 : Nat) : Int) - 1075) = ((53 : Nat) : Int) + ((n : Int) - 1074) by omega]

/-- Where infinity begins. -/
def top : Rat := ((2 ^ 54 - 1 : Nat) : Rat) * 2 ^ (970 : Int)

/-- Below that, the result is finite. -/
theorem rnd_finite (q : Rat) (h : 0 ≤ q) (ht : q < top) : rnd q < inf := by
  by_cases h0 : q = 0
  · simp only [rnd, if_pos h0, inf]; omega
  have hq : 0 < q := by grind
  obtain ⟨e1, e2, e3⟩ := rnd_parts q hq
  have hp := two_pos (expo q)
  have hr := (half_ok (q * 2 ^ (-expo q)) (Rat.le_of_lt (Rat.mul_pos hq (two_pos _)))).1
  have hone : (2 : Rat) ^ (-expo q) * 2 ^ expo q = 1 := by
    rw [← Rat.zpow_add two_ne, show -expo q + expo q = 0 by omega]; rfl
  simp only [rnd, if_neg h0]
  rcases Nat.lt_or_ge ((expo q + 1074).toNat * 2 ^ 52 + halfEven (q * 2 ^ (-expo q))) inf with hb | hb
  · omega
  exfalso
  simp only [inf] at hb
  generalize halfEven (q * 2 ^ (-expo q)) = m at *
  generalize hE : expo q = e at *
  obtain ⟨-, e4⟩ := e3 (by omega)
  by_cases hee : e = 971
  · have hm : m = 2 ^ 53 := by omega
    subst hm
    subst hee
    have t1 := Rat.mul_le_mul_of_nonneg_right hr (Rat.le_of_lt hp)
    simp only [top] at ht
    have c0 : (2 : Rat) ^ (971 : Int) = 2 ^ (970 : Int) * 2 := by decide +kernel
    have c1 : ((2 ^ 54 - 1 : Nat) : Rat) = 18014398509481983 := by decide +kernel
    have c2 : ((2 ^ 53 : Nat) : Rat) = 9007199254740992 := by decide +kernel
    rw [c1] at ht
    rw [c2] at t1
    have t2 : (2 * (q * (2 : Rat) ^ (-(971 : Int))) + 1) * 2 ^ (971 : Int) = 2 * q * (2 ^ (-(971 : Int)) * 2 ^ (971 : Int)) + 2 ^ (971 : Int) := by grind
    rw [t2, hone, c0] at t1
    generalize (2 : Rat) ^ (970 : Int) = z at *
    grind
  · have h1 : (2 : Rat) ^ (972 : Int) ≤ 2 ^ e := two_mono _ _ (by omega)
    have h2 := Rat.mul_le_mul_of_nonneg_left h1 (Rat.le_of_lt (two_pos 52))
    have h3 : top ≤ (2 : Rat) ^ (52 : Int) * 2 ^ (972 : Int) := by decide +kernel
    grind

/-- No double is nearer to a number than the one that it is rounded to. -/
theorem rnd_nearest (q : Rat) (h : 0 ≤ q) (ht : q < top) (g : Nat) (k : Int) (hg : g < 2 ^ 53) (hk : -1074 ≤ k) :
    dist q (val (rnd q)) ≤ dist q ((g : Rat) * 2 ^ k) := by
  by_cases h0 : q = 0
  · subst h0
    have : val (rnd 0) = 0 := by decide +kernel
    rw [this]
    simp only [dist]
    split <;> split <;> grind
  have hq : 0 < q := by grind
  have hfin := rnd_finite q h ht
  obtain ⟨e1, e2, e3⟩ := rnd_parts q hq
  have hp := two_pos (expo q)
  have hr0 : 0 ≤ q * 2 ^ (-expo q) := Rat.le_of_lt (Rat.mul_pos hq (two_pos _))
  have hone : (2 : Rat) ^ (-expo q) * 2 ^ expo q = 1 := by
    rw [← Rat.zpow_add two_ne, show -expo q + expo q = 0 by omega]; rfl
  have hv : val (rnd q) = (halfEven (q * 2 ^ (-expo q)) : Rat) * 2 ^ expo q := by
    simp only [rnd, if_neg h0] at hfin ⊢
    rw [Nat.min_eq_right (by omega)]
    exact val_bits _ _ e1 e2 (fun hne => (e3 hne).1) (by omega)
  rw [hv]
  have key : ∀ N : Nat, dist q ((halfEven (q * 2 ^ (-expo q)) : Rat) * 2 ^ expo q) ≤ dist q ((N : Rat) * 2 ^ expo q) := by
    intro N
    have hd := half_nearest _ hr0 N
    have sc : ∀ y : Rat, dist q (y * 2 ^ expo q) = dist (q * 2 ^ (-expo q)) y * 2 ^ expo q := by
      intro y
      have e : q = q * 2 ^ (-expo q) * 2 ^ expo q := by
        rw [Rat.mul_assoc, hone, Rat.mul_one]
      generalize q * 2 ^ (-expo q) = r at *
      generalize (2 : Rat) ^ expo q = z at *
      rw [e]
      simp only [dist]
      have iff : r * z ≤ y * z ↔ r ≤ y := ⟨fun h => Rat.le_of_mul_le_mul_right h hp, fun h => Rat.mul_le_mul_of_nonneg_right h (Rat.le_of_lt hp)⟩
      by_cases hc : r ≤ y
      · rw [if_pos hc, if_pos (iff.2 hc)]; grind
      · rw [if_neg hc, if_neg (fun h => hc (iff.1 h))]; grind
    rw [sc, sc]
    exact Rat.mul_le_mul_of_nonneg_right hd (Rat.le_of_lt hp)
  by_cases hke : expo q ≤ k
  · have : (g : Rat) * 2 ^ k = ((g * 2 ^ (k - expo q).toNat : Nat) : Rat) * 2 ^ expo q := by
      rw [Rat.natCast_mul, cast_pow2, Rat.mul_assoc, ← Rat.zpow_add two_ne,
        show (((k - expo q).toNat : Nat) : Int) + expo q = k by omega]
    rw [this]
    exact key _
  · obtain ⟨-, e4⟩ := e3 (by omega)
    refine Rat.le_trans (key (2 ^ 52)) ?_
    rw [cast_pow2]
    have h1 : (g : Rat) * 2 ^ k ≤ ((2 ^ 53 : Nat) : Rat) * 2 ^ k := Rat.mul_le_mul_of_nonneg_right (nat_le (by omega)) (Rat.le_of_lt (two_pos k))
    rw [cast_pow2, ← Rat.zpow_add two_ne] at h1
    have h2 : (2 : Rat) ^ (((53 : Nat) : Int) + k) ≤ 2 ^ (52 : Int) * 2 ^ expo q := by
      rw [← Rat.zpow_add two_ne]; exact two_mono _ _ (by omega)
    have e5 : (2 : Rat) ^ (((52 : Nat) : Int)) = 2 ^ (52 : Int) := rfl
    rw [e5]
    simp only [dist]
    split <;> split <;> grind

/-- The bits of a finite double. -/
theorem val_number (b : Nat) (h : b < inf) : Finite b ∧ number b = val b := by
  simp only [inf] at h
  have hf : Finite b := ⟨by omega, by omega⟩
  refine ⟨hf, ?_⟩
  obtain ⟨f, e, hb, hn, -⟩ := Grisu.bits_ok b hf
  rw [Nat.mod_eq_of_lt (by omega)] at hb
  rw [hn, if_neg (by omega), Rat.one_mul]
  simp only [val, hb]

theorem dist_self (a : Rat) : dist a a = 0 := by simp only [dist]; split <;> grind

theorem dist_zero {a b : Rat} (h : dist a b ≤ 0) : a = b := by
  simp only [dist] at h
  split at h <;> grind

/-- A double is rounded to itself. -/
theorem rnd_exact (g : Nat) (k : Int) (hg : g < 2 ^ 53) (hk : -1074 ≤ k) (ht : (g : Rat) * 2 ^ k < top) :
    val (rnd ((g : Rat) * 2 ^ k)) = (g : Rat) * 2 ^ k := by
  have h0 : (0 : Rat) ≤ (g : Rat) * 2 ^ k := Rat.mul_nonneg (nat_le (Nat.zero_le g)) (Rat.le_of_lt (two_pos k))
  have := rnd_nearest _ h0 ht g k hg hk
  rw [dist_self] at this
  exact (dist_zero this).symm

/-- Different bits have different values. -/
theorem val_inj (a b : Nat) (ha : a < inf) (hb : b < inf) (h : val a = val b) : a = b := by
  have aux : ∀ (f g : Nat) (e : Int) (n : Nat), f < 2 ^ 53 → 2 ^ 52 ≤ g → (f : Rat) * 2 ^ e = (g : Rat) * 2 ^ (e + ((n + 1 : Nat) : Int)) → False := by
    intro f g e n hf hg h
    rw [Rat.zpow_add two_ne, ← cast_pow2] at h
    have h2 : (f : Rat) * 2 ^ e = ((g * 2 ^ (n + 1) : Nat) : Rat) * 2 ^ e := by rw [h, Rat.natCast_mul]; grind
    have hlt : f < g * 2 ^ (n + 1) := by
      have : 1 ≤ 2 ^ n := Grisu.pow_ge_one n
      have := Nat.mul_le_mul hg (show 2 ≤ 2 ^ (n + 1) by rw [Nat.pow_succ]; omega)
      omega
    have := Rat.mul_lt_mul_of_pos_right (nat_lt hlt) (two_pos e)
    rw [h2] at this
    exact absurd this (by grind)
  simp only [inf] at ha hb
  obtain ⟨f, e, b1, -, f1, e1, e2, n1, -, -⟩ := Grisu.bits_ok a ⟨by omega, by omega⟩
  obtain ⟨g, k, c1, -, g1, k1, k2, m1, -, -⟩ := Grisu.bits_ok b ⟨by omega, by omega⟩
  rw [Nat.mod_eq_of_lt (by omega)] at b1 c1
  simp only [val, b1, c1] at h
  have he : e = k := by
    rcases (show e < k ∨ e = k ∨ k < e by omega) with hl | hl | hl
    · exfalso
      have : k = e + (((k - e).toNat - 1 + 1 : Nat) : Int) := by omega
      rw [this] at h
      exact aux f g e _ f1 (m1 (by omega)) h
    · exact hl
    · exfalso
      have : e = k + (((e - k).toNat - 1 + 1 : Nat) : Int) := by omega
      rw [this] at h
      exact aux g f k _ g1 (n1 (by omega)) h.symm
  subst he
  have hfg : f = g := by
    rcases Nat.lt_trichotomy f g with hl | hl | hl
    · have := Rat.mul_lt_mul_of_pos_right (nat_lt hl) (two_pos e)
      rw [h] at this; exact absurd this (by grind)
    · exact hl
    · have := Rat.mul_lt_mul_of_pos_right (nat_lt hl) (two_pos e)
      rw [h] at this; exact absurd this (by grind)
  subst hfg
  simp only [Grisu.ofBits, Grisu.hidden] at b1 c1
  split at b1 <;> split at c1 <;> simp only [Grisu.DiyFp.mk.injEq] at b1 c1 <;> omega

end Verif.ReadDouble
