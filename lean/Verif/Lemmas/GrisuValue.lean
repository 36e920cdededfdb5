import Verif.Lemmas.GrisuBounds
/-
Lemmas for C148: the digits denote a number between the boundaries of the double.
-/
namespace Verif.Grisu

theorem two_ne : (2 : Rat) ≠ 0 := by decide
theorem ten_ne : (10 : Rat) ≠ 0 := by decide
theorem two_pos (z : Int) : (0 : Rat) < 2 ^ z := Rat.zpow_pos (by decide)
theorem ten_pos (z : Int) : (0 : Rat) < 10 ^ z := Rat.zpow_pos (by decide)

theorem cast_pow2 (n : Nat) : (((2 ^ n : Nat)) : Rat) = 2 ^ (n : Int) := by rw [Rat.zpow_natCast, Rat.natCast_pow]; rfl
theorem cast_pow10 (n : Nat) : (((10 ^ n : Nat)) : Rat) = 10 ^ (n : Int) := by rw [Rat.zpow_natCast, Rat.natCast_pow]; rfl

theorem int_le {a b : Int} (h : a ≤ b) : (a : Rat) ≤ b := Rat.intCast_le_intCast.2 h
theorem nat_le {a b : Nat} (h : a ≤ b) : (a : Rat) ≤ b := Rat.natCast_le_natCast.2 h
theorem nat_lt {a b : Nat} (h : a < b) : (a : Rat) < b := Rat.natCast_lt_natCast.2 h

/-- What the digits denote, as a rational number in units of 2^-s. -/
theorem result_rat {s M delta : Nat} {r : List Int} {kappa : Int} (h : Result s M delta r kappa) :
    (val r : Rat) * 10 ^ kappa * 2 ^ (s : Int) ≤ M ∧ (M : Rat) ≤ (val r : Rat) * 10 ^ kappa * 2 ^ (s : Int) + delta ∧
      (delta : Rat) < 10 * 10 ^ kappa * 2 ^ (s : Int) := by
  rcases (show (∃ k : Nat, kappa = k) ∨ ∃ n : Nat, kappa = -((n : Int) + 1) from by
    rcases (show kappa < 0 ∨ 0 ≤ kappa by omega) with h | h
    · exact .inr ⟨(-kappa - 1).toNat, by omega⟩
    · exact .inl ⟨kappa.toNat, by omega⟩) with ⟨k, rfl⟩ | ⟨n, rfl⟩
  · obtain ⟨a, b, c⟩ := h.whole k rfl
    have a := int_le a
    have b := int_le b
    have c := nat_lt c
    simp only [Rat.intCast_mul, Rat.intCast_add, Rat.intCast_natCast, Rat.natCast_mul, cast_pow2, cast_pow10] at a b c
    refine ⟨by grind, by grind, ?_⟩
    have : ((10 : Nat) : Rat) = 10 := rfl
    grind
  · obtain ⟨a, b, c⟩ := h.fraction n rfl
    have a := int_le a
    have b := int_le b
    have c := nat_lt c
    simp only [Rat.intCast_mul, Rat.intCast_add, Rat.intCast_natCast, Rat.natCast_mul, cast_pow2, cast_pow10] at a b c
    have e1 : (10 : Rat) ^ (-((n : Int) + 1)) * 10 ^ ((n + 1 : Nat) : Int) = 1 := by
      rw [← Rat.zpow_add ten_ne, show -((n : Int) + 1) + ((n + 1 : Nat) : Int) = 0 by omega]; rfl
    have e2 : (10 : Rat) ^ ((n + 1 : Nat) : Int) = 10 ^ (n : Int) * 10 := by
      rw [show ((n + 1 : Nat) : Int) = (n : Int) + 1 by omega, Rat.zpow_add_one ten_ne]
    have p := ten_pos (n : Int)
    have p1 := ten_pos ((n + 1 : Nat) : Int)
    generalize (10 : Rat) ^ (-((n : Int) + 1)) = z at *
    generalize (2 : Rat) ^ (s : Int) = o at *
    refine ⟨Rat.le_of_mul_le_mul_right (c := 10 ^ ((n + 1 : Nat) : Int)) ?_ p1, Rat.le_of_mul_le_mul_right (c := 10 ^ ((n + 1 : Nat) : Int)) ?_ p1,
      Rat.lt_of_mul_lt_mul_right (c := 10 ^ (n : Int)) ?_ (Rat.le_of_lt p)⟩
    · have : (val r : Rat) * z * o * 10 ^ ((n + 1 : Nat) : Int) = val r * o * (z * 10 ^ ((n + 1 : Nat) : Int)) := by grind
      rw [this, e1]; grind
    · have : ((val r : Rat) * z * o + delta) * 10 ^ ((n + 1 : Nat) : Int) = val r * o * (z * 10 ^ ((n + 1 : Nat) : Int)) + delta * 10 ^ ((n + 1 : Nat) : Int) := by grind
      rw [this, e1]; grind
    · rw [e2] at e1
      have : (10 : Rat) * z * o * 10 ^ (n : Int) = (z * (10 ^ (n : Int) * 10)) * o := by grind
      rw [this, e1]; grind

theorem zpow_split (a : Rat) (ha : a ≠ 0) (z : Int) : a ^ z * a ^ (((-z).toNat : Nat) : Int) = a ^ ((z.toNat : Nat) : Int) := by
  rw [← Rat.zpow_add ha]; congr 1; omega

/-- The cached power is off by less than one half. -/
theorem power_rat (F : Nat) (E k : Int) (h0 : 1 ≤ F) (h1 : (2 * F - 1) * (10 ^ k.toNat * 2 ^ E.toNat) < 2 * (10 ^ (-k).toNat * 2 ^ (-E).toNat))
    (h2 : 2 * (10 ^ (-k).toNat * 2 ^ (-E).toNat) < (2 * F + 1) * (10 ^ k.toNat * 2 ^ E.toNat)) :
    (2 : Rat) * F - 1 < 2 * (10 ^ (-k) * 2 ^ (-E)) ∧ 2 * (10 ^ (-k) * 2 ^ (-E)) < (2 : Rat) * F + 1 := by
  have a := nat_lt h1
  have b := nat_lt h2
  have e0 : (((2 * F - 1 : Nat)) : Rat) = 2 * F - 1 := by
    have : ((2 * F - 1 : Nat) : Rat) + ((1 : Nat) : Rat) = ((2 * F : Nat) : Rat) := by rw [← Rat.natCast_add]; congr 1; omega
    rw [Rat.natCast_mul] at this
    have h2 : ((2 : Nat) : Rat) = 2 := rfl
    have h1 : ((1 : Nat) : Rat) = 1 := rfl
    grind
  have e3 : ((2 : Nat) : Rat) = 2 := rfl
  have e4 : ((1 : Nat) : Rat) = 1 := rfl
  simp only [Rat.natCast_mul, Rat.natCast_add, cast_pow2, cast_pow10, e0, e3, e4] at a b
  have k1 := zpow_split 10 ten_ne (-k)
  have k2 := zpow_split 2 two_ne (-E)
  rw [Int.neg_neg] at k1 k2
  rw [← k1, ← k2] at a b
  have p := Rat.mul_pos (ten_pos ((k.toNat : Nat) : Int)) (two_pos ((E.toNat : Nat) : Int))
  generalize (10 : Rat) ^ ((k.toNat : Nat) : Int) = u at *
  generalize (2 : Rat) ^ ((E.toNat : Nat) : Int) = v at *
  generalize (10 : Rat) ^ (-k) = x at *
  generalize (2 : Rat) ^ (-E) = y at *
  constructor
  · refine Rat.lt_of_mul_lt_mul_right (c := u * v) ?_ (Rat.le_of_lt p)
    grind
  · refine Rat.lt_of_mul_lt_mul_right (c := u * v) ?_ (Rat.le_of_lt p)
    grind

theorem count_ok (p : Nat) (h1 : 1 ≤ p) (h2 : p < 10 ^ 9) : 1 ≤ count p ∧ count p ≤ 9 ∧ 10 ^ (count p - 1) ≤ p ∧ p < 10 ^ count p := by
  simp only [count]
  repeat (split; · exact ⟨by omega, by omega, by simp; omega, by simp; omega⟩)
  exact ⟨by omega, by omega, by simp; omega, by simp; omega⟩

/-- DigitGen for a number of at least 2^s and an interval that is not too small for seventeen digits. -/
theorem digitGen_ok (w : DiyFp) (M delta : Nat) (e : Int) (h1 : 0 ≤ -e) (h2 : -e ≤ 60) (hM : M < 2 ^ 64) (hd : 0 < delta) (hdM : delta < M)
    (hlo : 2 ^ (-e).toNat ≤ M) (hhi : M / 2 ^ (-e).toNat < 10 ^ 9) (h16 : M ≤ 10 ^ 16 * delta) :
    ∃ r kappa, digitGen w ⟨M, e⟩ delta = some (r, kappa) ∧ Result (-e).toNat M delta r kappa ∧ r.length ≤ 17 := by
  simp only [digitGen]
  rw [if_pos ⟨h1, by omega⟩]
  have hs : (-e).toNat ≤ 60 := by omega
  generalize (-e).toNat = s at *
  have hpos : 0 < 2 ^ s := Nat.pow_pos (by omega)
  rw [Nat.mod_eq_of_lt (show M / 2 ^ s < 2 ^ 32 by omega)]
  obtain ⟨c1, c2, c3, c4⟩ := count_ok (M / 2 ^ s) (Nat.div_pos hlo hpos) hhi
  have hdm : M / 2 ^ s * 2 ^ s + M % 2 ^ s = M := by rw [Nat.mul_comm]; exact Nat.div_add_mod ..
  obtain ⟨r, kappa, a, b, c⟩ := gen_ok s (sub64 M w.f) M delta (M % 2 ^ s) hs hd hM (Nat.mod_lt _ hpos) (count (M / 2 ^ s)) (count (M / 2 ^ s)) (M / 2 ^ s) []
    c2 c4 (by omega) (fun _ => ⟨c1, c3⟩) (fun h => absurd rfl h) (by simp) (by simp only [val]; omega) (by omega)
  refine ⟨r, kappa, a, b, ?_⟩
  rcases c with c | ⟨i, c, d⟩
  · omega
  · have l1 : 10 ^ (count (M / 2 ^ s) - 1) * 2 ^ s ≤ M := by
      have := Nat.mul_le_mul_right (2 ^ s) c3
      omega
    have l2 : 10 ^ (count (M / 2 ^ s) - 1) * 2 ^ s * 10 ^ i ≤ 10 ^ 16 * delta * 10 ^ i := Nat.mul_le_mul_right _ (by omega)
    have l3 : 10 ^ 16 * (delta * 10 ^ i) < 10 ^ 16 * 2 ^ s := Nat.mul_lt_mul_of_pos_left d (by omega)
    have l4 : 10 ^ (count (M / 2 ^ s) - 1 + i) * 2 ^ s < 10 ^ 16 * 2 ^ s := by
      rw [Nat.pow_add, Nat.mul_right_comm]
      rw [Nat.mul_assoc (10 ^ 16)] at l2
      omega
    have l5 := Nat.lt_of_mul_lt_mul_right l4
    have l6 := (Nat.pow_lt_pow_iff_right (by omega : 1 < 10)).1 l5
    omega

end Verif.Grisu
