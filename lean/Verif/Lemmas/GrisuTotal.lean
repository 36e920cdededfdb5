import Verif.Lemmas.GrisuValue
/-
Lemmas for C148: Grisu2 as a whole.
-/
namespace Verif.Grisu

/-- The integers of Grisu2: `x` and `z` are the products of the boundaries and the cached power. -/
theorem interval (f b y F x z U V up : Nat) (hf : f < 2 ^ 53) (hb : b = if f = hidden then 1 else 2) (h1 : 1 ≤ f)
    (hx : x = (f * 4 + 2) * y) (hz : z = (f * 4 - b) * y) (hy : 2 ^ 72 ≤ y)
    (hU : 2 ^ 64 * U ≤ x + 2 ^ 63) (hU2 : x + 2 ^ 63 < 2 ^ 64 * (U + 1)) (hV : 2 ^ 64 * V ≤ z + 2 ^ 63) (hV2 : z + 2 ^ 63 < 2 ^ 64 * (V + 1))
    (hF : F < 2 ^ 64) (hup : up < 2 ^ 64) (hxu : x = up * F) :
    V + 2 < U ∧ 3 * y ≤ 2 ^ 64 * (U - 1 - (V + 1)) + 3 * 2 ^ 64 ∧ U - 1 ≤ 10 ^ 16 * (U - 1 - (V + 1)) ∧ U ≤ F ∧ 2 ^ 64 * (U - 1) + 2 ^ 63 ≤ x ∧
      z + 2 ^ 63 < 2 ^ 64 * (V + 1) := by
  have hfy : f * y ≤ (2 ^ 53 - 1) * y := Nat.mul_le_mul_right _ (by omega)
  have hxF : up * F ≤ (2 ^ 64 - 1) * F := Nat.mul_le_mul_right _ (by omega)
  have ex : x = 4 * (f * y) + 2 * y := by rw [hx, Nat.add_mul, Nat.mul_right_comm]; omega
  by_cases hh : f = hidden
  · rw [if_pos hh] at hb
    subst hb
    have ez : z + y = 4 * (f * y) := by
      rw [hz, Nat.sub_mul, Nat.mul_right_comm]
      have : 1 * y ≤ f * y := Nat.mul_le_mul_right _ h1
      omega
    have hfy2 : f * y = 2 ^ 52 * y := by rw [hh, hidden]
    refine ⟨by omega, by omega, by omega, by omega, by omega, by omega⟩
  · rw [if_neg hh] at hb
    subst hb
    have ez : z + 2 * y = 4 * (f * y) := by
      rw [hz, Nat.sub_mul, Nat.mul_right_comm]
      have : 1 * y ≤ f * y := Nat.mul_le_mul_right _ h1
      omega
    refine ⟨by omega, by omega, by omega, by omega, by omega, by omega⟩

theorem grisu_ok (f : Nat) (e : Int) (h1 : 1 ≤ f) (h2 : f < 2 ^ 53) (he : -1074 ≤ e) (he2 : e ≤ 971) (hn : e ≠ -1074 → 2 ^ 52 ≤ f) :
    ∃ r K, grisu2 ⟨f, e⟩ = some (r.reverse, K) ∧ Good r ∧ r.length ≤ 17 ∧
      ((f * 4 - below f : Nat) : Rat) * 2 ^ (e - 2) < val r * 10 ^ K ∧ (val r : Rat) * 10 ^ K < ((f * 4 + 2 : Nat) : Rat) * 2 ^ (e - 2) ∧
      (2 : Rat) ^ (e - 1) < 10 * 10 ^ K := by
  obtain ⟨t, t1, t2, n1, n2, hnorm, hbound, hup, ht⟩ := boundaries_ok f e h1 h2
  have hq1 : -1137 ≤ e - 2 - t := by
    by_cases h : e = -1074
    · omega
    · have := ht (hn h); omega
  have hq2 : e - 2 - t ≤ 960 := by omega
  obtain ⟨c, k, hc, F1, F2, s1, s2, hdiv, p1, p2⟩ := power_ok _ hq1 hq2
  obtain ⟨r1, r2⟩ := power_rat c.f c.e k (by omega) p1 p2
  simp only [grisu2, hbound, hc, hnorm, Option.bind_some]
  have hb : below f = 1 ∨ below f = 2 := by simp only [below]; split <;> simp
  have hpt : 2 ^ 9 ≤ 2 ^ t := Nat.pow_le_pow_right (by omega) t1
  have hpt2 : 2 ^ t ≤ 2 ^ 61 := Nat.pow_le_pow_right (by omega) t2
  have hum : (f * 4 - below f) * 2 ^ t ≤ (f * 4 + 2) * 2 ^ t := Nat.mul_le_mul_right _ (by omega)
  have hum1 : 1 ≤ (f * 4 - below f) * 2 ^ t := Nat.mul_pos (by omega) (by omega)
  obtain ⟨a1, a2, a3, a4⟩ := mul_ok ⟨(f * 4 + 2) * 2 ^ t, e - 2 - t⟩ c hup F2
  obtain ⟨b1, b2, b3, -⟩ := mul_ok ⟨(f * 4 - below f) * 2 ^ t, e - 2 - t⟩ c (by simp only; omega) F2
  generalize mul ⟨(f * 4 + 2) * 2 ^ t, e - 2 - t⟩ c = u at *
  generalize mul ⟨(f * 4 - below f) * 2 ^ t, e - 2 - t⟩ c = v at *
  generalize mul ⟨f * 4 * 2 ^ t, e - 2 - t⟩ c = w at *
  simp only at a1 a2 a3 a4 b1 b2 b3
  have hy : 2 ^ 72 ≤ 2 ^ t * c.f := by
    have : 2 ^ 9 * 2 ^ 63 ≤ 2 ^ t * c.f := Nat.mul_le_mul hpt F1
    omega
  have hy2 : 2 ^ t * 2 ^ 63 ≤ 2 ^ t * c.f := Nat.mul_le_mul_left _ F1
  obtain ⟨i1, i2, i3, i4, i5, i6⟩ := interval f (below f) (2 ^ t * c.f) c.f _ _ u.f v.f _ h2 rfl h1 (Nat.mul_assoc ..) (Nat.mul_assoc ..) hy a1 a2 b1 b2
    F2 hup rfl
  have hbig : (f * 4 + 2) * 2 ^ t * c.f ≥ 2 ^ 63 * 2 ^ 63 := Nat.mul_le_mul (by rw [Nat.add_mul]; omega) F1
  rw [sub64_of u.f 1 (by omega) a3, w64_of (v.f + 1) (by omega), sub64_of _ _ (by omega) (by omega), a4]
  have hs : (2 : Nat) ^ (-(e - 2 - t + c.e + 64)).toNat ≤ 2 ^ 60 := Nat.pow_le_pow_right (by omega) (by omega)
  obtain ⟨r, kappa, g1, g2, g3⟩ := digitGen_ok w (u.f - 1) (u.f - 1 - (v.f + 1)) (e - 2 - t + c.e + 64) (by omega) s2 (by omega) (by omega) (by omega)
    (by omega) (Nat.lt_of_le_of_lt (Nat.div_le_div_right (by omega)) hdiv) i3
  rw [g1]
  obtain ⟨x1, x2, x3⟩ := result_rat g2
  refine ⟨r, k + kappa, rfl, g2.good, g3, ?_⟩
  -- rational numbers
  have q1 := nat_le i5
  have q2 := nat_lt i6
  have q3 := nat_le i2
  have q4 := nat_lt hup
  have q5 := nat_le hum
  have q6 := nat_le hum1
  have q7 : (((u.f - 1 - (v.f + 1) : Nat)) : Rat) + ((v.f + 1 : Nat) : Rat) = ((u.f - 1 : Nat) : Rat) := by
    rw [← Rat.natCast_add, show u.f - 1 - (v.f + 1) + (v.f + 1) = u.f - 1 by omega]
  have q8 := nat_le hy2
  have q9 := nat_le hy
  have q10 := nat_le hpt2
  have eW : (10 : Rat) ^ (-k) * 2 ^ (-c.e) * (10 ^ k * 2 ^ (c.e + (e - 2 - t))) = 2 ^ (e - 2 - t) := by
    have w1 : (10 : Rat) ^ (-k) * 10 ^ k = 1 := by rw [← Rat.zpow_add ten_ne, show -k + k = 0 by omega]; rfl
    have w2 : (2 : Rat) ^ (-c.e) * 2 ^ (c.e + (e - 2 - t)) = 2 ^ (e - 2 - t) := by
      rw [← Rat.zpow_add two_ne, show -c.e + (c.e + (e - 2 - t)) = e - 2 - t by omega]
    rw [← w2]
    generalize (10 : Rat) ^ (-k) = A at *
    generalize (2 : Rat) ^ (-c.e) = B at *
    grind
  have eX : (10 : Rat) ^ kappa * 2 ^ (((-(e - 2 - t + c.e + 64)).toNat : Nat) : Int) * 2 ^ (64 : Int) * (10 ^ k * 2 ^ (c.e + (e - 2 - t))) = 10 ^ (k + kappa) := by
    have w2 : (2 : Rat) ^ (((-(e - 2 - t + c.e + 64)).toNat : Nat) : Int) * 2 ^ (64 : Int) * 2 ^ (c.e + (e - 2 - t)) = 1 := by
      rw [← Rat.zpow_add two_ne, ← Rat.zpow_add two_ne,
        show (((-(e - 2 - t + c.e + 64)).toNat : Nat) : Int) + 64 + (c.e + (e - 2 - t)) = 0 by omega]; rfl
    rw [Rat.zpow_add ten_ne]
    generalize (2 : Rat) ^ (((-(e - 2 - t + c.e + 64)).toNat : Nat) : Int) = A at *
    generalize (10 : Rat) ^ kappa = B at *
    generalize (10 : Rat) ^ k = D at *
    generalize (2 : Rat) ^ (c.e + (e - 2 - t)) = E at *
    generalize (2 : Rat) ^ (64 : Int) = G at *
    grind
  have hW : (0 : Rat) < 10 ^ k * 2 ^ (c.e + (e - 2 - t)) := Rat.mul_pos (ten_pos _) (two_pos _)
  have eT : (2 : Rat) ^ (t : Int) * 2 ^ (e - 2 - t) = 2 ^ (e - 2) := by rw [← Rat.zpow_add two_ne, show (t : Int) + (e - 2 - t) = e - 2 by omega]
  have eT2 : 2 * (2 : Rat) ^ (e - 2) = 2 ^ (e - 1) := by
    rw [show e - 1 = e - 2 + 1 by omega, Rat.zpow_add_one two_ne, Rat.mul_comm]
  have e64 : (2 : Rat) ^ (64 : Int) = 18446744073709551616 := by decide +kernel
  have n64 : (((2 : Nat) ^ 64 : Nat) : Rat) = 18446744073709551616 := by decide +kernel
  have n63 : (((2 : Nat) ^ 63 : Nat) : Rat) = 9223372036854775808 := by decide +kernel
  have n72 : (((2 : Nat) ^ 72 : Nat) : Rat) = 4722366482869645213696 := by decide +kernel
  have n61 : (((2 : Nat) ^ 61 : Nat) : Rat) = 2305843009213693952 := by decide +kernel
  have n3 : (((3 : Nat)) : Rat) = 3 := rfl
  have n1' : (((1 : Nat)) : Rat) = 1 := rfl
  simp only [Rat.natCast_mul, Rat.natCast_add (a := 2 ^ 64 * (u.f - 1)), Rat.natCast_add (a := (f * 4 - below f) * 2 ^ t * c.f),
    Rat.natCast_add (a := 2 ^ 64 * (u.f - 1 - (v.f + 1))), n64, n63, n72, n61, n3, n1', cast_pow2 t] at q1 q2 q3 q4 q5 q6 q8 q9 q10
  rw [e64] at eX
  have hT := two_pos (t : Int)
  generalize (2 : Rat) ^ (t : Int) = T at *
  generalize ((f * 4 + 2 : Nat) : Rat) = P at *
  generalize ((f * 4 - below f : Nat) : Rat) = Q at *
  generalize ((u.f - 1 - (v.f + 1) : Nat) : Rat) = dl at *
  generalize ((v.f + 1 : Nat) : Rat) = V at *
  generalize ((u.f - 1 : Nat) : Rat) = M at *
  generalize (c.f : Rat) = F at *
  generalize (10 : Rat) ^ (-k) * 2 ^ (-c.e) = C at *
  generalize (10 : Rat) ^ k * 2 ^ (c.e + (e - 2 - t)) = W at *
  generalize (10 : Rat) ^ kappa = z at *
  generalize (2 : Rat) ^ (((-(e - 2 - t + c.e + 64)).toNat : Nat) : Int) = o at *
  generalize (10 : Rat) ^ (k + kappa) = Z at *
  generalize (2 : Rat) ^ (e - 2 - t) = R at *
  generalize (val r : Rat) = D at *
  -- the products with the true power
  have hP : P * T * (2 * F - 1) < P * T * (2 * C) := Rat.mul_lt_mul_of_pos_left r1 (by grind)
  have hQ : Q * T * (2 * C) < Q * T * (2 * F + 1) := Rat.mul_lt_mul_of_pos_left r2 (by grind)
  have hTC : T * (2 * C) < T * (2 * F + 1) := Rat.mul_lt_mul_of_pos_left r2 hT
  have m1 : D * z * o * 18446744073709551616 < P * T * C := by grind
  have m2 : Q * T * C < D * z * o * 18446744073709551616 := by grind
  have m3 : 2 * T * C < 10 * z * o * 18446744073709551616 := by grind
  have m1 := Rat.mul_lt_mul_of_pos_right m1 hW
  have m2 := Rat.mul_lt_mul_of_pos_right m2 hW
  have m3 := Rat.mul_lt_mul_of_pos_right m3 hW
  have f1 : D * z * o * 18446744073709551616 * W = D * Z := by rw [← eX]; grind
  have f2 : P * T * C * W = P * 2 ^ (e - 2) := by rw [← eT, ← eW]; grind
  have f3 : Q * T * C * W = Q * 2 ^ (e - 2) := by rw [← eT, ← eW]; grind
  have f4 : 2 * T * C * W = 2 ^ (e - 1) := by rw [← eT2, ← eT, ← eW]; grind
  have f5 : 10 * z * o * 18446744073709551616 * W = 10 * Z := by rw [← eX]; grind
  rw [f1, f2] at m1
  rw [f1, f3] at m2
  rw [f4, f5] at m3
  exact ⟨m2, m1, m3⟩

end Verif.Grisu
