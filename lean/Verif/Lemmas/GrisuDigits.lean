import Verif.Model.Grisu
/-
Lemmas for C148: which digits the loops of DigitGen give.
-/
namespace Verif.Grisu

theorem w64_of (n : Nat) (h : n < 2 ^ 64) : w64 n = n := Nat.mod_eq_of_lt h

theorem sub64_of (a b : Nat) (h : b ≤ a) (ha : a < 2 ^ 64) : sub64 a b = a - b := by
  simp only [sub64, w64]; omega

/-- The number that digits denote, the last one first. -/
def val : List Int → Int
  | [] => 0
  | d :: r => val r * 10 + d

/-- Digits from 0 to 9, the last one first; the first one is not 0. -/
def Good : List Int → Prop
  | [] => False
  | [d] => 1 ≤ d ∧ d ≤ 9
  | d :: r => 0 ≤ d ∧ d ≤ 9 ∧ Good r

theorem good_cons (d : Int) (r : List Int) (h0 : 0 ≤ d) (h9 : d ≤ 9) (h : r = [] → 1 ≤ d) (hr : r ≠ [] → Good r) : Good (d :: r) := by
  cases r with
  | nil => exact ⟨h rfl, h9⟩
  | cons e r => exact ⟨h0, h9, hr (by simp)⟩

theorem good_ne {r : List Int} (h : Good r) : r ≠ [] := by
  intro e; subst e; exact h

/-- Rounding lowers the last digit, but not below what is left of the interval. -/
theorem round_ok (delta ten wpw : Nat) (ht : 0 < ten) (hd : delta < 2 ^ 64) (d n rest : Nat) (hn : d < n) (hr : rest ≤ delta)
    (hs : delta ≤ rest + d * ten) :
    ∃ j, j ≤ d ∧ grisuRound delta ten wpw n rest (d : Int) = some ((d : Int) - j) ∧ rest + j * ten ≤ delta := by
  induction d generalizing n rest with
  | zero =>
    obtain ⟨n, rfl⟩ : ∃ m, n = m + 1 := ⟨n - 1, by omega⟩
    simp only [grisuRound]
    rw [if_neg]
    · exact ⟨0, by omega, by simp, by omega⟩
    · rintro ⟨-, h, -⟩
      rw [sub64_of _ _ hr hd] at h
      omega
  | succ d ih =>
    obtain ⟨n, rfl⟩ : ∃ m, n = m + 1 := ⟨n - 1, by omega⟩
    simp only [grisuRound]
    split
    · next h =>
      have h2 := h.2.1
      rw [sub64_of _ _ hr hd] at h2
      have e : w64 (rest + ten) = rest + ten := w64_of _ (by omega)
      rw [Nat.add_mul] at hs
      obtain ⟨j, hj, e2, hl⟩ := ih n (rest + ten) (by omega) (by omega) (by omega)
      refine ⟨j + 1, by omega, ?_, by rw [Nat.add_mul]; omega⟩
      rw [e, show ((d + 1 : Nat) : Int) - 1 = (d : Int) by omega, e2]
      congr 1; omega
    · exact ⟨0, by omega, by simp, by omega⟩

theorem push_eq (d : Nat) (rev : List Int) (h : d ≠ 0 ∨ rev ≠ []) : push d rev = (d : Int) :: rev := by
  simp only [push, if_pos h]

/-- What the digits and `kappa` of a number `M` (in units of 2^-s) and an interval of `delta` are like. -/
structure Result (s M delta : Nat) (r : List Int) (kappa : Int) : Prop where
  good : Good r
  whole : ∀ k : Nat, kappa = k → val r * (10 ^ k * 2 ^ s : Nat) ≤ M ∧ (M : Int) ≤ val r * (10 ^ k * 2 ^ s : Nat) + delta ∧ delta < 10 * (10 ^ k * 2 ^ s)
  fraction : ∀ n : Nat, kappa = -((n : Int) + 1) → val r * (2 ^ s : Nat) ≤ (M * 10 ^ (n + 1) : Nat) ∧
    ((M * 10 ^ (n + 1) : Nat) : Int) ≤ val r * (2 ^ s : Nat) + (delta * 10 ^ (n + 1) : Nat) ∧ delta * 10 ^ n < 2 ^ s

theorem frac_ok (s wpw M delta : Nat) (hs : s ≤ 60) (hd : 0 < delta) (L : Nat) (m : Nat) : ∀ (n p2 dl : Nat) (rev : List Int), m + n = 32 → p2 < 2 ^ s →
    dl = delta * 10 ^ n → dl ≤ p2 → Good rev → rev.length = L + n →
    (val rev * (2 ^ s : Nat) + p2 = (M * 10 ^ n : Nat)) →
    ∃ r kappa, frac s wpw m n p2 dl rev = some (r, kappa) ∧ Result s M delta r kappa ∧
      ∃ i : Nat, kappa = -((i : Int) + 1) ∧ r.length = L + i + 1 ∧ delta * 10 ^ i < 2 ^ s := by
  have h60 : (2 : Nat) ^ s ≤ 2 ^ 60 := Nat.pow_le_pow_right (by omega) hs
  induction m with
  | zero =>
    intro n p2 dl rev hm hp hdl hle
    have hn : n = 32 := by omega
    subst hn
    have : 1 * 10 ^ 32 ≤ delta * 10 ^ 32 := Nat.mul_le_mul_right _ hd
    omega
  | succ m ih =>
    intro n p2 dl rev hm hp hdl hle hg hlen hv
    have hpos : 0 < 2 ^ s := Nat.pow_pos (by omega)
    have e1 : w64 (p2 * 10) = p2 * 10 := w64_of _ (by omega)
    have e2 : w64 (dl * 10) = dl * 10 := w64_of _ (by omega)
    simp only [frac, e1, e2]
    have hdiv := Nat.div_add_mod (p2 * 10) (2 ^ s)
    have hmod := Nat.mod_lt (p2 * 10) hpos
    have hd9 : p2 * 10 / 2 ^ s < 10 := Nat.div_lt_of_lt_mul (by omega)
    rw [push_eq _ _ (.inr (good_ne hg))]
    generalize hdd : p2 * 10 / 2 ^ s = d at *
    generalize hrr : p2 * 10 % 2 ^ s = rest at *
    generalize hone : 2 ^ s = one at *
    have hdl2 : dl * 10 = delta * 10 ^ (n + 1) := by rw [hdl, Nat.pow_succ, Nat.mul_assoc]
    have hM : M * 10 ^ (n + 1) = M * 10 ^ n * 10 := by rw [Nat.pow_succ, Nat.mul_assoc]
    have hv2 : (val rev * 10 + d) * (one : Nat) + rest = (M * 10 ^ (n + 1) : Nat) := by
      rw [hM, Int.add_mul, Int.mul_right_comm]
      have : ((d : Int) * (one : Int)) = ((one * d : Nat) : Int) := by rw [Nat.mul_comm]; simp
      rw [this]; omega
    by_cases hstop : rest < dl * 10
    · rw [if_pos hstop]
      obtain ⟨j, hj, er, hl⟩ := round_ok (dl * 10) one (w64 (wpw * factor (n + 1))) hpos (by omega) d 32 rest (by omega) (by omega)
        (by rw [Nat.mul_comm d]; omega)
      simp only [roundLast, er, Option.map_some]
      have hvj : (val rev * 10 + ((d : Int) - j)) * (one : Nat) + (rest + j * one : Nat) = (M * 10 ^ (n + 1) : Nat) := by
        rw [← hv2]
        have : ((rest + j * one : Nat) : Int) = rest + j * one := by simp
        rw [this]; grind
      refine ⟨_, _, rfl, ⟨?_, ?_, ?_⟩, n, rfl, by simp only [List.length_cons]; omega, by omega⟩
      · exact good_cons _ _ (by omega) (by omega) (fun h => absurd h (good_ne hg)) (fun _ => hg)
      · intro k hk; omega
      · intro i hi
        have : i = n := by omega
        subst this
        rw [hone]
        simp only [val]
        refine ⟨by omega, by omega, by omega⟩
    · rw [if_neg hstop]
      obtain ⟨r, kappa, a, b, c⟩ := ih (n + 1) rest (dl * 10) (d :: rev) (by omega) hmod hdl2 (by omega)
        (good_cons _ _ (by omega) (by omega) (fun h => absurd h (good_ne hg)) (fun _ => hg)) (by simp only [List.length_cons]; omega)
        (by simp only [val]; exact hv2)
      exact ⟨r, kappa, a, b, c⟩

theorem gen_ok (s wpw M delta p2 : Nat) (hs : s ≤ 60) (hd : 0 < delta) (hM : M < 2 ^ 64) (hp2 : p2 < 2 ^ s) (L : Nat) (k : Nat) :
    ∀ (p1 : Nat) (rev : List Int), k ≤ 9 → p1 < 10 ^ k → delta < p1 * 2 ^ s + p2 → (rev = [] → 1 ≤ k ∧ 10 ^ (k - 1) ≤ p1) → (rev ≠ [] → Good rev) →
    rev.length + k = L → val rev * (10 ^ k * 2 ^ s : Nat) + (p1 * 2 ^ s + p2 : Nat) = M → p1 * 2 ^ s + p2 ≤ M →
    ∃ r kappa, gen s wpw p2 delta k p1 rev = some (r, kappa) ∧ Result s M delta r kappa ∧
      (r.length ≤ L ∨ ∃ i : Nat, r.length = L + i + 1 ∧ delta * 10 ^ i < 2 ^ s) := by
  induction k with
  | zero =>
    intro p1 rev _ hp1 hdl hempty hgood hlen hv hle
    have : p1 = 0 := by omega
    subst this
    have hne : rev ≠ [] := fun h => by have := hempty h; omega
    simp only [gen]
    obtain ⟨r, kappa, a, b, i, hi, c, d⟩ := frac_ok s wpw M delta hs hd L 32 0 p2 delta rev rfl hp2 (by simp) (by omega) (hgood hne) (by omega)
      (by simpa using hv)
    exact ⟨r, kappa, a, b, .inr ⟨i, c, d⟩⟩
  | succ k ih =>
    intro p1 rev hk hp1 hdl hempty hgood hlen hv hle
    have hpos : 0 < 10 ^ k := Nat.pow_pos (by omega)
    have hpos2 : 0 < 2 ^ s := Nat.pow_pos (by omega)
    have hdiv := Nat.div_add_mod p1 (10 ^ k)
    have hmod := Nat.mod_lt p1 hpos
    have hd9 : p1 / 10 ^ k < 10 := Nat.div_lt_of_lt_mul (by rw [Nat.pow_succ] at hp1; omega)
    have hne : p1 / 10 ^ k ≠ 0 ∨ rev ≠ [] := by
      by_cases h : rev = []
      · left
        have := (hempty h).2
        simp only [Nat.add_sub_cancel] at this
        exact Nat.pos_iff_ne_zero.1 (Nat.div_pos this hpos)
      · exact .inr h
    have hfirst : rev = [] → 1 ≤ p1 / 10 ^ k := fun h => by
      rcases hne with hne | hne
      · exact Nat.pos_of_ne_zero hne
      · exact absurd h hne
    have hten : (10 : Nat) ^ (k + 1) = 10 ^ k * 10 := Nat.pow_succ ..
    simp only [gen]
    rw [push_eq _ _ hne]
    generalize hdd : p1 / 10 ^ k = d at *
    generalize hrr : p1 % 10 ^ k = q at *
    generalize hten' : (10 : Nat) ^ k = ten at *
    generalize hone : (2 : Nat) ^ s = one at *
    have hsplit : p1 * one = d * (ten * one) + q * one := by
      rw [← hdiv, Nat.add_mul]
      congr 1
      rw [Nat.mul_comm ten d, Nat.mul_assoc]
    have hmono : q * one < ten * one := Nat.mul_lt_mul_of_pos_right hmod hpos2
    have e1 : w64 (q * one) = q * one := w64_of _ (by omega)
    have e2 : w64 (q * one + p2) = q * one + p2 := w64_of _ (by omega)
    rw [e1, e2]
    have hv2 : (val rev * 10 + d) * (ten * one : Nat) + (q * one + p2 : Nat) = M := by
      rw [← hv, hten]
      have h1 : ((ten * 10 * one : Nat) : Int) = 10 * ((ten * one : Nat) : Int) := by
        rw [Nat.mul_right_comm]; omega
      rw [h1, hsplit]
      have h2 : ((d * (ten * one) + q * one + p2 : Nat) : Int) = d * ((ten * one : Nat) : Int) + ((q * one + p2 : Nat) : Int) := by
        simp only [Int.natCast_add, Int.natCast_mul]; omega
      rw [h2]
      generalize ((ten * one : Nat) : Int) = y
      grind
    by_cases hstop : q * one + p2 ≤ delta
    · rw [if_pos hstop]
      have hto : ten * one < 2 ^ 64 := by
        have : 1 ≤ d ∨ d = 0 := by omega
        rcases this with h | h
        · have : 1 * (ten * one) ≤ d * (ten * one) := Nat.mul_le_mul_right _ h
          omega
        · exfalso
          rw [h] at hsplit
          omega
      rw [w64_of _ hto]
      have hpt : 0 < ten * one := Nat.mul_pos hpos hpos2
      obtain ⟨j, hj, er, hl⟩ := round_ok delta (ten * one) wpw hpt (by omega) d 32 (q * one + p2) (by omega) hstop (by omega)
      have hjd : j < d := by
        rcases Nat.lt_or_ge j d with h | h
        · exact h
        · have : d * (ten * one) ≤ j * (ten * one) := Nat.mul_le_mul_right _ h
          omega
      simp only [roundLast, er, Option.map_some]
      have hvj : (val rev * 10 + ((d : Int) - j)) * (ten * one : Nat) + (q * one + p2 + j * (ten * one) : Nat) = M := by
        rw [← hv2]
        have : ((q * one + p2 + j * (ten * one) : Nat) : Int) = ((q * one + p2 : Nat) : Int) + j * ((ten * one : Nat) : Int) := by
          simp only [Int.natCast_add, Int.natCast_mul]
        rw [this]
        generalize ((ten * one : Nat) : Int) = y
        grind
      refine ⟨_, _, rfl, ⟨?_, ?_, ?_⟩, .inl (by simp; omega)⟩
      · exact good_cons _ _ (by omega) (by omega) (fun h => by omega) hgood
      · intro k' hk'
        have : k' = k := by omega
        subst this
        rw [hten', hone]
        simp only [val]
        refine ⟨by omega, by omega, ?_⟩
        have : d * (ten * one) ≤ 9 * (ten * one) := Nat.mul_le_mul_right _ (by omega)
        have : p2 < ten * one := by
          have : 1 * one ≤ ten * one := Nat.mul_le_mul_right _ hpos
          omega
        have : (q + 1) * one ≤ ten * one := Nat.mul_le_mul_right _ hmod
        rw [Nat.add_mul] at this
        omega
      · intro i hi; omega
    · rw [if_neg hstop]
      have hg : Good ((d : Int) :: rev) := good_cons _ _ (by omega) (by omega) (fun h => by have := hfirst h; omega) hgood
      exact ih q (d :: rev) (by omega) hmod (by omega) (fun h => by simp at h) (fun _ => hg) (by simp; omega)
        (by simp only [val]; exact hv2) (by omega)

end Verif.Grisu
