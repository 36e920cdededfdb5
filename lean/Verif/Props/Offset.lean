import Verif.Model.Acquisition
/-! Property C06: the frame offset is frame number plus adjustment, never a wrapped value. -/
namespace Verif.Acq

theorem toInt32_le (n : Int) (h : 0 ≤ n) : toInt32 n ≤ n := by
  unfold toInt32; dsimp only; split <;> omega

theorem toInt32_small (n : Int) (h0 : 0 ≤ n) (h : n < 2147483648) : toInt32 n = n := by
  unfold toInt32; dsimp only; split <;> omega

theorem toU64_small (n : Int) (h0 : 0 ≤ n) (h : n < 18446744073709551616) : (toU64 n : Int) = n := by
  unfold toU64; omega

/-- C06, full statement: for every representable frame number and adjustment (the adjustment bounded so
that the 64 bit sum itself does not overflow) the offset is accepted iff the sum is non-negative, and
then it is the sum. False, see `C06_violated`. -/
def C06_statement : Prop :=
  ∀ n adj : Int, 0 ≤ n → n < 2 ^ 63 → -(2 ^ 62) ≤ adj → adj < 2 ^ 62 →
    (n + adj < 0 → adjustOffset n adj = none) ∧
    (0 ≤ n + adj → ∃ off, adjustOffset n adj = some off ∧ (off : Int) = n + adj)

/-- C06 is violated: frame 2^31 without any adjustment is rejected, because the frame number is
converted to a 32 bit `int` before the sign test. -/
theorem C06_violated : ¬ C06_statement := by
  intro h
  obtain ⟨_, h2⟩ := h 2147483648 0 (by decide) (by decide) (by decide) (by decide)
  obtain ⟨off, h3, _⟩ := h2 (by decide)
  rw [show adjustOffset 2147483648 0 = none by decide] at h3
  simp at h3

/-- C06, safe half, for all frame numbers: an accepted frame has exactly the offset number plus
adjustment, and a negative sum is always rejected. -/
theorem C06_never_wraps (n adj : Int) (h0 : 0 ≤ n) (h1 : n < 2 ^ 63) (h2 : adj < 2 ^ 62) :
    (∀ off, adjustOffset n adj = some off → (off : Int) = n + adj) ∧
    (n + adj < 0 → adjustOffset n adj = none) := by
  have hle := toInt32_le n h0
  refine ⟨?_, ?_⟩
  · intro off h
    unfold adjustOffset at h
    split at h
    · simp at h
    · rename_i hs
      simp only [Option.some.injEq] at h
      rw [← h, toU64_small n h0 (by omega)]
      exact toU64_small _ (by omega) (by omega)
  · intro hneg
    unfold adjustOffset
    rw [if_pos (by omega)]

/-- C06, proved part of the accepting half: frame numbers below 2^31. Missing: numbers from 2^31 on,
for which the claim is false (`C06_violated`). -/
theorem C06_accept_partial (n adj : Int) (h0 : 0 ≤ n) (h1 : n < 2 ^ 31) (h2 : adj < 2 ^ 62)
    (hs : 0 ≤ n + adj) : ∃ off, adjustOffset n adj = some off ∧ (off : Int) = n + adj := by
  unfold adjustOffset
  rw [toInt32_small n h0 (by omega), if_neg (by omega)]
  refine ⟨_, rfl, ?_⟩
  rw [toU64_small n h0 (by omega)]
  exact toU64_small _ hs (by omega)

/-- A frame with the negative number -2^32 (frame numbers are signed 64 bit) is accepted and gets an
offset near 2^64: the sign test looks at the low 32 bits only. -/
theorem C06_negative_number_violated :
    adjustOffset (-4294967296) 0 = some 18446744069414584320 := by decide

/-- Non-vacuity: number 7, adjustment -3. -/
example : adjustOffset 7 (-3) = some 4 ∧ adjustOffset 7 (-8) = none := by decide

end Verif.Acq
