import Verif.Model.Filename
namespace Verif.Filename

/-- Reading a decimal numeral back. -/
def val (l : List Char) : Nat := l.foldl (fun a c => 10 * a + (c.toNat - 48)) 0

theorem digit_toNat (d : Nat) (h : d < 10) : (digit d).toNat - 48 = d := by
  unfold digit
  have : d = 0 ∨ d = 1 ∨ d = 2 ∨ d = 3 ∨ d = 4 ∨ d = 5 ∨ d = 6 ∨ d = 7 ∨ d = 8 ∨ d = 9 := by omega
  rcases this with h|h|h|h|h|h|h|h|h|h <;> subst h <;> decide

theorem val_dec (n : Nat) : val (dec n) = n := by
  induction n using Nat.strongRecOn with
  | _ n ih =>
    unfold dec
    split
    · rename_i h; simp only [val, List.foldl]; rw [digit_toNat n h]; omega
    · rename_i h
      have := ih (n / 10) (by omega)
      unfold val at *
      rw [List.foldl_append, this]
      simp only [List.foldl]
      rw [digit_toNat _ (Nat.mod_lt _ (by omega))]
      omega

theorem val_replicate_append (k : Nat) (l : List Char) :
    val (List.replicate k '0' ++ l) = val l := by
  induction k with
  | zero => rfl
  | succ k ih =>
    rw [List.replicate_succ, List.cons_append]
    unfold val at *
    rw [List.foldl_cons]
    have : 10 * 0 + ('0'.toNat - 48) = 0 := by decide
    rw [this]; exact ih

theorem dec_length_le (n k : Nat) (hk : 0 < k) (h : n < 10 ^ k) : (dec n).length ≤ k := by
  induction k generalizing n with
  | zero => omega
  | succ k ih =>
    unfold dec
    split
    · simp
    · rename_i h10
      rw [List.length_append, List.length_singleton]
      rcases Nat.eq_zero_or_pos k with hk0 | hk0
      · subst hk0; omega
      · have : n / 10 < 10 ^ k := by
          apply Nat.div_lt_of_lt_mul
          rw [Nat.pow_succ] at h; omega
        have := ih (n / 10) hk0 this
        omega

theorem number6_small (n : Nat) (h : n < 10 ^ 6) :
    number6 n = List.replicate (6 - (dec n).length) '0' ++ dec n := by
  unfold number6
  have := dec_length_le n 6 (by omega) h
  apply List.take_of_length_le
  simp; omega

theorem number6_injective (m n : Nat) (hm : m < 10 ^ 6) (hn : n < 10 ^ 6)
    (h : number6 m = number6 n) : m = n := by
  rw [number6_small m hm, number6_small n hn] at h
  have := congrArg val h
  rwa [val_replicate_append, val_replicate_append, val_dec, val_dec] at this

theorem dec_ne_nil (n : Nat) : dec n ≠ [] := by
  unfold dec; split <;> simp

end Verif.Filename
