import Verif.Model.Sum
/-! Property C21: the sum parameter. -/
namespace Verif.Sum

namespace Spec

/-- Width of the integer pixel types. -/
def width : DType → Option Nat
  | .raw8 => some 1
  | .raw16 => some 2
  | .raw32 => some 4
  | .raw64 => some 8
  | _ => none

/-- Value of a pixel: its bytes, lowest first. -/
def value (d : Nat → Nat) (w i : Nat) : Nat := ((List.range w).map (fun k => d (i * w + k) * 256 ^ k)).sum

/-- The sum of all whole pixels. -/
def total (m : Image) (w : Nat) : Nat := ((List.range (m.size / w)).map (value m.data w)).sum

/-- Bytes are bytes. -/
def Bytes (m : Image) : Prop := ∀ b, m.data b < 256

end Spec
open Spec

theorem pixel_eq (d : Nat → Nat) (w i : Nat) : pixel d w i = value d w i := by
  unfold pixel value
  generalize List.range w = l
  induction l with
  | nil => rfl
  | cons k l ih => simp only [List.foldr_cons, List.map_cons, List.sum_cons, ih]

theorem loop_eq (d : Nat → Nat) (w n : Nat) :
    loop d w n = ((List.range n).map (value d w)).sum % 2 ^ 64 := by
  induction n with
  | zero => rfl
  | succ n ih =>
    unfold loop
    rw [ih, pixel_eq, List.range_succ, List.map_append, List.sum_append]
    simp only [List.map_cons, List.map_nil, List.sum_cons, List.sum_nil, Nat.add_zero]
    rw [Nat.mod_add_mod]

theorem narrow_small (n : Nat) (h : n < 2 ^ 31) : narrow n = (n : Int) := by
  unfold narrow
  have : n % 2 ^ 32 = n := Nat.mod_eq_of_lt (by omega)
  rw [this, if_pos h]

theorem calculateSum_small (w : Nat) (m : Image) (h : m.size < 2 ^ 31) :
    calculateSum w m = some (total m w % 2 ^ 64) := by
  unfold calculateSum
  dsimp only
  have h1 : widen (narrow m.size) = m.size := by
    rw [narrow_small _ h]; unfold widen; rw [if_pos (by omega)]; omega
  rw [h1, if_pos (Nat.div_mul_le_self _ _), loop_eq]
  rfl

theorem value_lt (d : Nat → Nat) (w i : Nat) (h : ∀ b, d b < 256) : value d w i < 256 ^ w := by
  have : ∀ n s, ((List.range n).map (fun k => d (s + k) * 256 ^ k)).sum < 256 ^ n := by
    intro n
    induction n with
    | zero => intro s; simp
    | succ n ih =>
      intro s
      rw [List.range_succ, List.map_append, List.sum_append]
      simp only [List.map_cons, List.map_nil, List.sum_cons, List.sum_nil, Nat.add_zero]
      have h1 := ih s
      have h2 : d (s + n) * 256 ^ n ≤ 255 * 256 ^ n := Nat.mul_le_mul_right _ (by have := h (s + n); omega)
      rw [Nat.pow_succ]; omega
  exact this w (i * w)

theorem sum_map_le (f : Nat → Nat) (b : Nat) (h : ∀ i, f i ≤ b) (l : List Nat) :
    (l.map f).sum ≤ l.length * b := by
  induction l with
  | nil => simp
  | cons x l ih =>
    simp only [List.map_cons, List.sum_cons, List.length_cons, Nat.add_mul, Nat.one_mul]
    have := h x; omega

/-- Fewer than 2^32 pixels of at most 32 bits do not overflow 64 bits. -/
theorem total_lt (m : Image) (w : Nat) (hw : w ≤ 4) (hb : Bytes m) (hn : m.size / w < 2 ^ 32) :
    total m w < 2 ^ 64 := by
  unfold total
  have h1 : ∀ i, value m.data w i ≤ 2 ^ 32 - 1 := by
    intro i
    have h2 := value_lt m.data w i hb
    have h3 : 256 ^ w ≤ 256 ^ 4 := Nat.pow_le_pow_right (by decide) hw
    have h4 : (256 : Nat) ^ 4 = 2 ^ 32 := by decide
    omega
  have h2 := sum_map_le _ _ h1 (List.range (m.size / w))
  rw [List.length_range] at h2
  have h3 : m.size / w * (2 ^ 32 - 1) ≤ (2 ^ 32 - 1) * (2 ^ 32 - 1) := Nat.mul_le_mul_right _ (by omega)
  have h4 : (2 ^ 32 - 1) * (2 ^ 32 - 1) < 2 ^ 64 := by decide
  omega

/-- C21, full statement. -/
def C21_statement : Prop :=
  ∀ (t : DType) (w : Nat) (m : Image), width t = some w → Bytes m →
    processFrame t m = .pushed (some (total m w % 2 ^ 64)) ∧
    (w ≤ 4 → m.size / w < 2 ^ 32 → processFrame t m = .pushed (some (total m w)))

/-- C21, proved part: images of less than 2^31 bytes. Missing: larger images, whose size does not fit the
`int` it is kept in, see `C21_violated` and `C21_large_ub`. -/
theorem C21_partial (t : DType) (w : Nat) (m : Image) (ht : width t = some w) (hb : Bytes m)
    (hs : m.size < 2 ^ 31) :
    processFrame t m = .pushed (some (total m w % 2 ^ 64)) ∧
    (w ≤ 4 → m.size / w < 2 ^ 32 → processFrame t m = .pushed (some (total m w))) := by
  have h1 : processFrame t m = .pushed (some (total m w % 2 ^ 64)) := by
    cases t <;> simp only [width, Option.some.injEq, reduceCtorEq] at ht <;> subst ht <;>
      simp only [processFrame, attach] <;> rw [calculateSum_small _ _ hs]
  refine ⟨h1, fun hw hn => ?_⟩
  rw [h1, Nat.mod_eq_of_lt (total_lt m w hw hb hn)]

/-- C21: other pixel types are passed on without a sum. -/
theorem C21_other_types (t : DType) (m : Image) (ht : width t = none) : processFrame t m = .pushed none := by
  cases t <;> simp [width] at ht <;> rfl

/-- All 64-bit pixels are 1. -/
def ones (b : Nat) : Nat := if b % 8 = 0 then 1 else 0

theorem ones_digits (i : Nat) (g : Nat → Nat) (hg : g 0 = 1) (n : Nat) (hn : n < 8) :
    ((List.range (n + 1)).map (fun k => ones (i * 8 + k) * g k)).sum = 1 := by
  induction n with
  | zero =>
    have h0 : ones (i * 8) = 1 := by unfold ones; rw [if_pos (by omega)]
    simp only [Nat.zero_add, List.range_one, List.map_cons, List.map_nil, List.sum_cons, List.sum_nil, h0, hg, Nat.mul_one, Nat.add_zero]
  | succ n ih =>
    have hk : ones (i * 8 + (n + 1)) = 0 := by unfold ones; rw [if_neg (by omega)]
    rw [List.range_succ, List.map_append, List.sum_append, ih (by omega)]
    simp only [List.map_cons, List.map_nil, List.sum_cons, List.sum_nil, hk, Nat.zero_mul, Nat.add_zero]

theorem ones_value (i : Nat) : value ones 8 i = 1 :=
  ones_digits i (fun k => 256 ^ k) (Nat.pow_zero 256) 7 (by omega)

theorem ones_total (N : Nat) : total ⟨N, ones⟩ 8 = N / 8 := by
  unfold total
  have : ∀ n, ((List.range n).map (value ones 8)).sum = n := by
    intro n
    induction n with
    | zero => rfl
    | succ n ih =>
      rw [List.range_succ, List.map_append, List.sum_append, ih]
      simp only [List.map_cons, List.map_nil, List.sum_cons, List.sum_nil, ones_value, Nat.add_zero]
  exact this _

/-- An image of 2^32 bytes has size 0 as an `int`. -/
theorem ones_sum (N : Nat) (hN : N = 2 ^ 32) : processFrame .raw64 ⟨N, ones⟩ = .pushed (some 0) := by
  have hn : widen (narrow N) = 0 := by rw [hN]; decide
  simp only [processFrame, attach, calculateSum, hn, Nat.zero_div, Nat.zero_mul, Nat.zero_le, if_true, loop]

/-- C21 is false of the code: an image of 2^32 bytes has size 0 as an `int`, so its sum is 0. -/
theorem C21_violated : ¬ C21_statement := by
  intro h
  obtain ⟨N, hN⟩ : ∃ N : Nat, N = 2 ^ 32 := ⟨_, rfl⟩
  have h1 := (h .raw64 8 ⟨N, ones⟩ rfl (by intro b; unfold ones; dsimp only; split <;> omega)).1
  rw [ones_sum N hN, ones_total] at h1
  simp only [Result.pushed.injEq, Option.some.injEq] at h1
  omega

/-- An image of 2^31 bytes has a negative size: the loop leaves the frame. -/
theorem C21_large_ub (d : Nat → Nat) : processFrame .raw8 ⟨2 ^ 31, d⟩ = .ub := by
  have hn : widen (narrow (2 ^ 31)) = 2 ^ 64 - 2 ^ 31 := by decide
  simp only [processFrame, attach, calculateSum, hn]
  rw [if_neg (by decide)]

/-- Non-vacuity of `C21_partial`: three 16-bit pixels and a left-over byte. -/
example : Bytes ⟨7, fun b => [1, 2, 3, 4, 5, 6, 7].getD b 0⟩ ∧
    processFrame .raw16 ⟨7, fun b => [1, 2, 3, 4, 5, 6, 7].getD b 0⟩ = .pushed (some (513 + 1027 + 1541)) := by
  refine ⟨?_, by decide +kernel⟩
  intro b
  match b with
  | 0 | 1 | 2 | 3 | 4 | 5 | 6 => decide
  | b + 7 => simp

end Verif.Sum
