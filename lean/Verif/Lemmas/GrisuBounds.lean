import Verif.Lemmas.GrisuDigits
/-
Lemmas for C148: boundaries, cached powers, products.
-/
namespace Verif.Grisu

/-! ## Boundaries -/

theorem shiftUp_ok (n : Nat) : ∀ (m : Nat) (a : DiyFp), n < m → 2 ^ 53 ≤ a.f * 2 ^ n → a.f * 2 ^ n < 2 ^ 54 → shiftUp m a = some ⟨a.f * 2 ^ n, a.e - n⟩ := by
  induction n with
  | zero =>
    intro m a hm h1 h2
    obtain ⟨m, rfl⟩ : ∃ k, m = k + 1 := ⟨m - 1, by omega⟩
    simp only [Nat.pow_zero, Nat.mul_one] at h1 h2
    simp only [shiftUp]
    rw [if_pos (by omega)]
    simp
  | succ n ih =>
    intro m a hm h1 h2
    obtain ⟨m, rfl⟩ : ∃ k, m = k + 1 := ⟨m - 1, by omega⟩
    have e : a.f * 2 ^ (n + 1) = a.f * 2 * 2 ^ n := by rw [Nat.pow_succ, Nat.mul_comm (2 ^ n) 2, Nat.mul_assoc]
    have hpos : 1 ≤ 2 ^ n := Nat.pow_pos (by omega)
    have hle : a.f * 2 * 1 ≤ a.f * 2 * 2 ^ n := Nat.mul_le_mul_left _ hpos
    have hlt : a.f < 2 ^ 53 := by omega
    simp only [shiftUp]
    rw [if_neg (by omega), w64_of _ (by omega), ih m ⟨a.f * 2, a.e - 1⟩ (by omega) (by simp only; omega) (by simp only; omega)]
    simp only [e]
    congr 2
    omega

/-- The distance from a double to its lower boundary, in units of a quarter of its last bit. -/
def below (f : Nat) : Nat := if f = hidden then 1 else 2

/-- The boundaries of a double and the double itself, with a common exponent. -/
theorem boundaries_ok (f : Nat) (e : Int) (h1 : 1 ≤ f) (h2 : f < 2 ^ 53) :
    ∃ t : Nat, 9 ≤ t ∧ t ≤ 61 ∧ 2 ^ 63 ≤ f * 4 * 2 ^ t ∧ f * 4 * 2 ^ t < 2 ^ 64 ∧
      normalize ⟨f, e⟩ = some ⟨f * 4 * 2 ^ t, e - 2 - t⟩ ∧
      boundaries ⟨f, e⟩ = some (⟨(f * 4 - below f) * 2 ^ t, e - 2 - t⟩, ⟨(f * 4 + 2) * 2 ^ t, e - 2 - t⟩) ∧
      (f * 4 + 2) * 2 ^ t < 2 ^ 64 ∧ (2 ^ 52 ≤ f → t = 9) := by
  have hne : f ≠ 0 := by omega
  have l1 : 2 ^ Nat.log2 f ≤ f := Nat.log2_self_le hne
  have l2 : f < 2 ^ (Nat.log2 f + 1) := Nat.lt_log2_self
  have l3 : Nat.log2 f < 53 := (Nat.log2_lt hne).2 h2
  have hn : normalize ⟨f, e⟩ = some ⟨w64 (f * 2 ^ (63 - Nat.log2 f)), e - (63 - Nat.log2 f : Nat)⟩ := by
    simp only [normalize, if_neg hne]
  rw [hn]
  clear hn
  generalize Nat.log2 f = l at *
  obtain ⟨n, rfl, hnl⟩ : ∃ n, l = 52 - n ∧ n ≤ 52 := ⟨52 - l, by omega, by omega⟩
  have p1 : 2 ^ (52 - n) * 2 ^ n = 2 ^ 52 := by rw [← Nat.pow_add]; congr 1; omega
  have p2 : 2 ^ (52 - n + 1) = 2 ^ (52 - n) * 2 := Nat.pow_succ ..
  have x1 : 2 ^ (52 - n) * 2 ^ n ≤ f * 2 ^ n := Nat.mul_le_mul_right _ l1
  have x2 : (f + 1) * 2 ^ n ≤ 2 ^ (52 - n) * 2 * 2 ^ n := Nat.mul_le_mul_right _ (by omega)
  have hP : 1 ≤ 2 ^ n := Nat.pow_pos (by omega)
  have e9 : 2 ^ (n + 9) = 2 ^ n * 512 := by rw [Nat.pow_add]
  have e10 : 2 ^ (n + 10) = 2 ^ n * 1024 := by rw [Nat.pow_add]
  have e11 : 2 ^ (63 - (52 - n)) = 2 ^ n * 2048 := by rw [show 63 - (52 - n) = n + 11 by omega, Nat.pow_add]
  have n0 : 2 ^ 52 ≤ f → n = 0 := by
    intro h
    rcases Nat.eq_zero_or_pos n with h0 | h0
    · exact h0
    · have : 2 ^ (52 - n + 1) ≤ 2 ^ 52 := Nat.pow_le_pow_right (by omega) (by omega)
      omega
  rw [Nat.mul_right_comm, p1] at x2
  rw [p1] at x1
  have hsh := shiftUp_ok n 64 ⟨f * 2 + 1, e - 1⟩ (by omega)
  simp only at hsh
  have s1 : (f * 2 + 1) * 2 ^ n = f * 2 ^ n * 2 + 2 ^ n := by rw [Nat.add_mul, Nat.one_mul, Nat.mul_right_comm]
  have s2 : (f * 4 + 2) * (2 ^ n * 512) = (f * 2 ^ n * 2 + 2 ^ n) * 1024 := by
    generalize 2 ^ n = y; grind
  have s3 : f * 4 * (2 ^ n * 512) = f * 2 ^ n * 2048 := by
    generalize 2 ^ n = y; grind
  have s4 : f * (2 ^ n * 2048) = f * 2 ^ n * 2048 := by rw [Nat.mul_assoc]
  rw [Nat.add_mul, Nat.one_mul] at x2
  rw [s1] at hsh
  have hsh := hsh (by omega) (by omega)
  refine ⟨n + 9, by omega, by omega, by rw [e9, s3]; omega, by rw [e9, s3]; omega, ?_, ?_, by rw [e9, s2]; omega, fun h => by have := n0 h; omega⟩
  · rw [e11, e9, s3, s4, w64_of _ (by omega)]
    congr 2
    omega
  · have el : lower ⟨f, e⟩ = if f = hidden then ⟨f * 4 - 1, e - 2⟩ else ⟨f * 2 - 1, e - 1⟩ := by
      simp only [lower]
      rw [w64_of _ (by omega), w64_of _ (by omega), sub64_of _ _ (by omega) (by omega), sub64_of _ _ (by omega) (by omega)]
    simp only [boundaries, normalizeBoundary]
    rw [w64_of (f * 2) (by omega), w64_of (f * 2 + 1) (by omega), hsh]
    simp only [Option.map_some, Option.bind_some]
    rw [w64_of ((f * 2 ^ n * 2 + 2 ^ n) * 2 ^ 10) (by omega), el]
    by_cases hh : f = hidden
    · simp only [if_pos hh, below]
      rw [if_pos (by omega), show (e - 2 - (e - 1 - ↑n - 10)).toNat = n + 9 by omega, e9, s2]
      have b1 : (f * 4 - 1) * (2 ^ n * 512) ≤ f * 4 * (2 ^ n * 512) := Nat.mul_le_mul_right _ (by omega)
      rw [w64_of _ (by omega), show e - 1 - (n : Int) - 10 = e - 2 - ((n + 9 : Nat) : Int) by omega]
    · simp only [if_neg hh, below]
      rw [if_pos (by omega), show (e - 1 - (e - 1 - ↑n - 10)).toNat = n + 10 by omega, e9, e10, s2]
      have b2 : (f * 2 - 1) * (2 ^ n * 1024) = (f * 4 - 2) * (2 ^ n * 512) := by
        rw [show f * 4 - 2 = (f * 2 - 1) * 2 by omega, Nat.mul_assoc]
        congr 1; omega
      have b1 : (f * 4 - 2) * (2 ^ n * 512) ≤ f * 4 * (2 ^ n * 512) := Nat.mul_le_mul_right _ (by omega)
      rw [b2, w64_of _ (by omega), show e - 1 - (n : Int) - 10 = e - 2 - ((n + 9 : Nat) : Int) by omega]

/-! ## Products -/

theorem mul_ok (a c : DiyFp) (ha : a.f < 2 ^ 64) (hc : c.f < 2 ^ 64) :
    2 ^ 64 * (mul a c).f ≤ a.f * c.f + 2 ^ 63 ∧ a.f * c.f + 2 ^ 63 < 2 ^ 64 * ((mul a c).f + 1) ∧ (mul a c).f < 2 ^ 64 ∧ (mul a c).e = a.e + c.e + 64 := by
  have hp : a.f * c.f ≤ (2 ^ 64 - 1) * (2 ^ 64 - 1) := Nat.mul_le_mul (by omega) (by omega)
  simp only [mul]
  generalize a.f * c.f = p at *
  by_cases h : p % 2 ^ 64 / 2 ^ 63 = 1
  · rw [if_pos h, w64_of _ (by omega)]
    refine ⟨by omega, by omega, by omega, trivial⟩
  · rw [if_neg h, w64_of _ (by omega)]
    refine ⟨by omega, by omega, by omega, trivial⟩

/-! ## Cached powers -/

/-- What is needed of the power chosen for an exponent. -/
def checkOf (q : Int) (o : Option (DiyFp × Int)) : Bool :=
  match o with
  | none => false
  | some (c, k) => decide (2 ^ 63 ≤ c.f) && decide (c.f < 2 ^ 64) && decide (34 ≤ -(q + c.e + 64)) && decide (-(q + c.e + 64) ≤ 60) &&
      decide (c.f / 2 ^ (-(q + c.e + 64)).toNat < 10 ^ 9) &&
      decide ((2 * c.f - 1) * (10 ^ k.toNat * 2 ^ c.e.toNat) < 2 * (10 ^ (-k).toNat * 2 ^ (-c.e).toNat)) &&
      decide (2 * (10 ^ (-k).toNat * 2 ^ (-c.e).toNat) < (2 * c.f + 1) * (10 ^ k.toNat * 2 ^ c.e.toNat))

def powerCheck (q : Int) : Bool := checkOf q (cachedPower q)

def powersCheck : Bool := (List.range 2098).all (fun i => powerCheck ((i : Int) - 1137))

theorem powers_checked : powersCheck = true := by decide +kernel

theorem power_ok (q : Int) (h1 : -1137 ≤ q) (h2 : q ≤ 960) :
    ∃ c k, cachedPower q = some (c, k) ∧ 2 ^ 63 ≤ c.f ∧ c.f < 2 ^ 64 ∧ 34 ≤ -(q + c.e + 64) ∧ -(q + c.e + 64) ≤ 60 ∧
      c.f / 2 ^ (-(q + c.e + 64)).toNat < 10 ^ 9 ∧
      (2 * c.f - 1) * (10 ^ k.toNat * 2 ^ c.e.toNat) < 2 * (10 ^ (-k).toNat * 2 ^ (-c.e).toNat) ∧
      2 * (10 ^ (-k).toNat * 2 ^ (-c.e).toNat) < (2 * c.f + 1) * (10 ^ k.toNat * 2 ^ c.e.toNat) := by
  have hr : (q + 1137).toNat ∈ List.range 2098 := List.mem_range.2 (by omega)
  have hp := powers_checked
  rw [powersCheck, List.all_eq_true] at hp
  have := hp _ hr
  clear hp hr
  rw [show (((q + 1137).toNat : Nat) : Int) - 1137 = q by omega] at this
  rw [powerCheck] at this
  generalize cachedPower q = o at *
  match o, this with
  | none, this => simp [checkOf] at this
  | some (c, k), this =>
    simp only [checkOf, Bool.and_eq_true, decide_eq_true_eq] at this
    obtain ⟨⟨⟨⟨⟨⟨a, b⟩, c'⟩, d⟩, e⟩, f⟩, g⟩ := this
    exact ⟨c, k, rfl, a, b, c', d, e, f, g⟩

end Verif.Grisu
