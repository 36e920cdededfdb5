import Verif.Model.JsonValue

/-
C157: a number or string in a document is read back as what was stored, as exactly the types that can hold it.
-/
namespace Verif.JsonValue

namespace Spec

/-- What a user of a value finds if it is the integer `z`. -/
structure IsInteger (m : Mem) (v : Nat) (z : Int) : Prop where
  number : getType m v = 6 ∧ isNumber m v = true
  notOther : isDouble m v = false ∧ isString m v = false ∧ isBool m v = false ∧ isNull m v = false ∧ isTrue m v = false ∧ isFalse m v = false ∧
    isObject m v = false ∧ isArray m v = false
  int : getInt m v = if -2^31 ≤ z ∧ z < 2^31 then some z else none
  uint : getUint m v = if 0 ≤ z ∧ z < 2^32 then some z.toNat else none
  int64 : getInt64 m v = if -2^63 ≤ z ∧ z < 2^63 then some z else none
  uint64 : getUint64 m v = if 0 ≤ z ∧ z < 2^64 then some z.toNat else none
  double : getDouble m v = some (.int z)

/-- What a user of a value finds if it is the double with these bits. -/
structure IsReal (m : Mem) (v d : Nat) : Prop where
  number : getType m v = 6 ∧ isNumber m v = true ∧ isDouble m v = true
  notOther : isString m v = false ∧ isBool m v = false ∧ isNull m v = false ∧ isTrue m v = false ∧ isFalse m v = false ∧
    isObject m v = false ∧ isArray m v = false
  notInt : getInt m v = none ∧ getUint m v = none ∧ getInt64 m v = none ∧ getUint64 m v = none
  double : getDouble m v = some (.bits d)

/-- What a user of a value finds if it is the string `s`: its characters, with a zero behind them. -/
structure IsText (m : Mem) (v : Nat) (s : List Nat) : Prop where
  string : getType m v = 5 ∧ isString m v = true
  notOther : isNumber m v = false ∧ isBool m v = false ∧ isNull m v = false ∧ isTrue m v = false ∧ isFalse m v = false ∧
    isObject m v = false ∧ isArray m v = false
  notNumber : getInt m v = none ∧ getUint m v = none ∧ getInt64 m v = none ∧ getUint64 m v = none ∧ getDouble m v = none
  text : getString m v = some s
  zero : m (stringPointer m v + s.length) = 0

/-- What a user of a value finds if it is the boolean `b`; `none`: it is null. -/
structure IsTruth (m : Mem) (v : Nat) (b : Option Bool) : Prop where
  type : getType m v = (match b with | some true => 2 | some false => 1 | none => 0)
  bool : isBool m v = b.isSome ∧ isTrue m v = decide (b = some true) ∧ isFalse m v = decide (b = some false) ∧ isNull m v = b.isNone
  notOther : isNumber m v = false ∧ isString m v = false ∧ isObject m v = false ∧ isArray m v = false
  nothing : getInt m v = none ∧ getUint m v = none ∧ getInt64 m v = none ∧ getUint64 m v = none ∧ getDouble m v = none ∧ getString m v = none

def Bytes (m : Mem) : Prop := ∀ i, m i < 256

end Spec

open Spec

/-! ### Memory -/

theorem le_length (n v : Nat) : (le n v).length = n := by
  induction n generalizing v with
  | zero => rfl
  | succ n ih => simp [le, ih]

theorem unle_le (n v : Nat) : unle (le n v) = v % 256^n := by
  induction n generalizing v with
  | zero => simp [le, unle, Nat.mod_one]
  | succ n ih =>
    simp only [le, unle, ih]
    rw [Nat.pow_succ, Nat.mul_comm (256^n) 256, Nat.mod_mul]

theorem le_take (n k v : Nat) (h : k ≤ n) : (le n v).take k = le k v := by
  induction k generalizing n v with
  | zero => simp [le]
  | succ k ih =>
    cases n with
    | zero => omega
    | succ n => simp [le, ih n (v / 256) (by omega)]

theorem le_drop (n k v : Nat) (h : k ≤ n) : (le n v).drop k = le (n - k) (v / 256^k) := by
  induction k generalizing n v with
  | zero => simp
  | succ k ih =>
    cases n with
    | zero => omega
    | succ n =>
      simp only [le, List.drop_succ_cons, Nat.add_sub_add_right]
      rw [ih n (v / 256) (by omega), Nat.div_div_eq_div_mul, Nat.pow_succ, Nat.mul_comm 256]

theorem store_in (m : Mem) (a : Nat) (bs : List Nat) (i : Nat) (h : i < bs.length) : store m a bs (a + i) = bs.getD i 0 := by
  simp only [store]
  rw [if_pos (by omega), Nat.add_sub_cancel_left]

theorem store_out (m : Mem) (a : Nat) (bs : List Nat) (i : Nat) (h : i < a ∨ a + bs.length ≤ i) : store m a bs i = m i := by
  simp only [store]
  rw [if_neg (by omega)]

theorem load_length (m : Mem) (a n : Nat) : (load m a n).length = n := by
  induction n generalizing a with
  | zero => rfl
  | succ n ih => simp [load, ih]

theorem load_congr (m m' : Mem) (a n : Nat) (h : ∀ i, a ≤ i → i < a + n → m i = m' i) : load m a n = load m' a n := by
  induction n generalizing a with
  | zero => rfl
  | succ n ih =>
    simp only [load]
    rw [h a (Nat.le_refl _) (by omega), ih (a + 1) (fun i h1 h2 => h i (by omega) (by omega))]

theorem load_store (m : Mem) (a : Nat) (bs : List Nat) (i n : Nat) (h : i + n ≤ bs.length) :
    load (store m a bs) (a + i) n = (bs.drop i).take n := by
  induction n generalizing i with
  | zero => simp [load]
  | succ n ih =>
    simp only [load]
    rw [store_in m a bs i (by omega), Nat.add_assoc, ih (i + 1) (by omega), List.drop_eq_getElem_cons (i := i) (by omega),
      List.take_succ_cons, List.getD_eq_getElem?_getD, List.getElem?_eq_getElem (by omega)]
    rfl

theorem load_store_out (m : Mem) (a b n : Nat) (bs : List Nat) (h : b + n ≤ a ∨ a + bs.length ≤ b) : load (store m a bs) b n = load m b n :=
  load_congr _ _ _ _ (fun i h1 h2 => store_out m a bs i (by omega))

/-- A part of a stored integer. -/
theorem loadNat_storeNat (m : Mem) (a n v i k : Nat) (h : i + k ≤ n) : loadNat (storeNat m a n v) (a + i) k = v / 256^i % 256^k := by
  simp only [loadNat, storeNat]
  rw [load_store m a _ i k (by rw [le_length]; exact h), le_drop n i v (by omega), le_take (n - i) k _ (by omega), unle_le]

theorem loadNat_out (m : Mem) (a b n k v : Nat) (h : b + k ≤ a ∨ a + n ≤ b) : loadNat (storeNat m a n v) b k = loadNat m b k := by
  simp only [loadNat, storeNat]
  rw [load_store_out m a b k _ (by rw [le_length]; exact h)]

theorem loadNat_split (m : Mem) (a n k : Nat) (h : Bytes m) : loadNat m a (n + k) = loadNat m a n + 256^n * loadNat m (a + n) k ∧ loadNat m a n < 256^n := by
  induction n generalizing a with
  | zero => simp [loadNat, load, unle]
  | succ n ih =>
    obtain ⟨h1, h2⟩ := ih (a + 1)
    have e1 : loadNat m a (n + 1 + k) = m a + 256 * loadNat m (a + 1) (n + k) := by
      rw [show n + 1 + k = (n + k) + 1 by omega]; rfl
    have e2 : loadNat m a (n + 1) = m a + 256 * loadNat m (a + 1) n := rfl
    have e3 : a + 1 + n = a + (n + 1) := by omega
    rw [e1, e2, h1, e3, Nat.pow_succ]
    have hb := h a
    constructor
    · rw [Nat.mul_add, Nat.add_assoc, ← Nat.mul_assoc, Nat.mul_comm 256 (256^n)]
    · generalize 256^n = P at *
      generalize loadNat m (a + 1) n = x at *
      omega

theorem bytes_store (m : Mem) (a : Nat) (bs : List Nat) (h : Bytes m) (hb : ∀ b ∈ bs, b < 256) : Bytes (store m a bs) := by
  intro i
  simp only [store]
  split
  · rename_i hi
    rw [List.getD_eq_getElem?_getD, List.getElem?_eq_getElem (by omega)]
    exact hb _ (List.getElem_mem _)
  · exact h i

theorem le_bytes (n v : Nat) : ∀ b ∈ le n v, b < 256 := by
  induction n generalizing v with
  | zero => simp [le]
  | succ n ih =>
    intro b hb
    simp only [le, List.mem_cons] at hb
    rcases hb with rfl | hb
    · omega
    · exact ih _ b hb

theorem bytes_storeNat (m : Mem) (a n v : Nat) (h : Bytes m) : Bytes (storeNat m a n v) := bytes_store m a _ h (le_bytes n v)

/-! ### Flags -/

theorem flags_set (m : Mem) (v f : Nat) (h : f < 65536) : flags (setFlags m v f) v = f := by
  have := loadNat_storeNat m (v + 14) 2 f 0 2 (by omega)
  simp only [flags, setFlags]
  simp only [Nat.add_zero, Nat.pow_zero, Nat.div_one] at this
  rw [this, Nat.mod_eq_of_lt (by simpa using h)]

theorem payload_set (m : Mem) (v f k : Nat) (h : k ≤ 14) : loadNat (setFlags m v f) v k = loadNat m v k := by
  simp only [setFlags]
  exact loadNat_out m (v + 14) v 2 k f (by omega)

/-! ### Masks -/

theorem and_high (x k j : Nat) (h : x < 2^(k + j)) : (x &&& ((2^j - 1) * 2^k) = 0) ↔ x < 2^k := by
  have e1 : (x &&& ((2^j - 1) * 2^k)) / 2^k = x / 2^k := by
    rw [← Nat.shiftRight_eq_div_pow, ← Nat.shiftRight_eq_div_pow, Nat.shiftRight_and_distrib, Nat.shiftRight_eq_div_pow ((2^j - 1) * 2^k),
      Nat.mul_div_cancel _ (Nat.pow_pos (by decide)), Nat.and_two_pow_sub_one_eq_mod, Nat.shiftRight_eq_div_pow]
    apply Nat.mod_eq_of_lt
    rw [Nat.div_lt_iff_lt_mul (Nat.pow_pos (by decide)), ← Nat.pow_add, Nat.add_comm]
    exact h
  have e2 : (x &&& ((2^j - 1) * 2^k)) % 2^k = 0 := by
    rw [Nat.and_mod_two_pow, Nat.mul_mod_left, Nat.and_zero]
  have e3 := Nat.div_add_mod (x &&& ((2^j - 1) * 2^k)) (2^k)
  rw [e1, e2, Nat.add_zero] at e3
  rw [← e3]
  constructor
  · intro h
    rcases Nat.mul_eq_zero.mp h with h | h
    · exact absurd h (Nat.ne_of_gt (Nat.pow_pos (by decide)))
    · rcases Nat.div_eq_zero_iff.mp h with h | h
      · exact absurd h (Nat.ne_of_gt (Nat.pow_pos (by decide)))
      · exact h
  · intro h
    rw [Nat.div_eq_of_lt h, Nat.mul_zero]

theorem mask32 (u : Nat) (h : u < 2^64) : (u &&& 0xFFFFFFFF00000000 = 0) ↔ u < 2^32 := and_high u 32 32 h
theorem mask31 (u : Nat) (h : u < 2^64) : (u &&& 0xFFFFFFFF80000000 = 0) ↔ u < 2^31 := and_high u 31 33 h
theorem mask63 (u : Nat) (h : u < 2^64) : (u &&& 0x8000000000000000 = 0) ↔ u < 2^63 := and_high u 63 1 h
theorem mask31' (u : Nat) (h : u < 2^32) : (u &&& 0x80000000 = 0) ↔ u < 2^31 := and_high u 31 1 h

/-! ### Integers -/

theorem toU64_nonneg (z : Int) (h0 : 0 ≤ z) (h : z < 2^64) : toU64 z = z.toNat := by
  simp only [toU64]
  rw [Int.emod_eq_of_lt h0 h]

theorem toU64_neg (z : Int) (h0 : z < 0) (h : -2^63 ≤ z) : (toU64 z : Int) = z + 2^64 := by
  simp only [toU64]
  omega

theorem toU64_lt (z : Int) : toU64 z < 2^64 := by
  simp only [toU64]
  omega

/-- The flags of an integer name exactly the types that hold it. -/
structure FlagsOk (f : Nat) (z : Int) : Prop where
  small : f < 65536
  type : f &&& 7 = 6 ∧ f &&& kNumber ≠ 0 ∧ f &&& kDouble = 0 ∧ f &&& kString = 0 ∧ f &&& kBool = 0
  int : f &&& kInt ≠ 0 ↔ -2^31 ≤ z ∧ z < 2^31
  uint : f &&& kUint ≠ 0 ↔ 0 ≤ z ∧ z < 2^32
  int64 : f &&& kInt64 ≠ 0 ↔ -2^63 ≤ z ∧ z < 2^63
  uint64 : f &&& kUint64 ≠ 0 ↔ 0 ≤ z ∧ z < 2^64

/-- A value with these flags and the bits of the integer. -/
theorem integer_ok (m : Mem) (v f : Nat) (z : Int) (hf : FlagsOk f z) (hz : -2^63 ≤ z ∧ z < 2^64) :
    IsInteger (setFlags (storeNat m v 8 (toU64 z)) v f) v z := by
  have hfl : flags (setFlags (storeNat m v 8 (toU64 z)) v f) v = f := flags_set _ v f hf.small
  have h8 : loadNat (setFlags (storeNat m v 8 (toU64 z)) v f) v 8 = toU64 z := by
    rw [payload_set _ v f 8 (by omega)]
    have := loadNat_storeNat m v 8 (toU64 z) 0 8 (by omega)
    simp only [Nat.add_zero, Nat.pow_zero, Nat.div_one] at this
    rw [this]
    exact Nat.mod_eq_of_lt (toU64_lt z)
  have h4 : loadNat (setFlags (storeNat m v 8 (toU64 z)) v f) v 4 = toU64 z % 2^32 := by
    rw [payload_set _ v f 4 (by omega)]
    have := loadNat_storeNat m v 8 (toU64 z) 0 4 (by omega)
    simp only [Nat.add_zero, Nat.pow_zero, Nat.div_one] at this
    rw [this]
  generalize setFlags (storeNat m v 8 (toU64 z)) v f = m' at hfl h8 h4
  obtain ⟨t1, t2, t3, t4, t5⟩ := hf.type
  have hh : ∀ k, has m' v k = decide (f &&& k ≠ 0) := by
    intro k
    simp only [has, hfl, ne_eq, decide_not]
    by_cases hk : f &&& k = 0 <;> simp [hk]
  have hi4 : -2^31 ≤ z ∧ z < 2^31 → signed 4 (toU64 z % 2^32) = z := by
    intro h
    by_cases h0 : 0 ≤ z
    · rw [toU64_nonneg z h0 (by omega)]
      simp only [signed]
      rw [if_pos (by omega)]
      omega
    · have := toU64_neg z (by omega) (by omega)
      simp only [signed]
      rw [if_neg (by omega)]
      omega
  have hi8 : -2^63 ≤ z ∧ z < 2^63 → signed 8 (toU64 z) = z := by
    intro h
    by_cases h0 : 0 ≤ z
    · rw [toU64_nonneg z h0 (by omega)]
      simp only [signed]
      rw [if_pos (by omega)]
      omega
    · have := toU64_neg z (by omega) (by omega)
      simp only [signed]
      rw [if_neg (by omega)]
      omega
  have hu4 : 0 ≤ z ∧ z < 2^32 → toU64 z % 2^32 = z.toNat := by
    intro h
    rw [toU64_nonneg z h.1 (by omega)]
    omega
  have hu8 : 0 ≤ z ∧ z < 2^64 → toU64 z = z.toNat := fun h => toU64_nonneg z h.1 h.2
  have n1 : isNumber m' v = true := by simp [isNumber, hh, t2]
  have n2 : isDouble m' v = false := by simp [isDouble, hh, t3]
  have g1 : isInt m' v = decide (-2^31 ≤ z ∧ z < 2^31) := by simp only [isInt, hh, hf.int]
  have g2 : isUint m' v = decide (0 ≤ z ∧ z < 2^32) := by simp only [isUint, hh, hf.uint]
  have g3 : isInt64 m' v = decide (-2^63 ≤ z ∧ z < 2^63) := by simp only [isInt64, hh, hf.int64]
  have g4 : isUint64 m' v = decide (0 ≤ z ∧ z < 2^64) := by simp only [isUint64, hh, hf.uint64]
  have ne : ∀ k, k &&& 7 ≠ 6 → (flags m' v == k) = false := by
    intro k hk
    rw [hfl]
    refine beq_false_of_ne (fun h => ?_)
    rw [h] at t1
    exact hk t1
  refine ⟨⟨by rw [getType, hfl]; exact t1, n1⟩, ⟨n2, by simp [isString, hh, t4], by simp [isBool, hh, t5], ne _ (by decide), ne _ (by decide), ne _ (by decide), ne _ (by decide), ne _ (by decide)⟩, ?_, ?_, ?_, ?_, ?_⟩
  · simp only [getInt, g1, decide_eq_true_eq, h4]
    by_cases h : -2^31 ≤ z ∧ z < 2^31
    · rw [if_pos h, if_pos h, hi4 h]
    · rw [if_neg h, if_neg h]
  · simp only [getUint, g2, decide_eq_true_eq, h4]
    by_cases h : 0 ≤ z ∧ z < 2^32
    · rw [if_pos h, if_pos h, hu4 h]
    · rw [if_neg h, if_neg h]
  · simp only [getInt64, g3, decide_eq_true_eq, h8]
    by_cases h : -2^63 ≤ z ∧ z < 2^63
    · rw [if_pos h, if_pos h, hi8 h]
    · rw [if_neg h, if_neg h]
  · simp only [getUint64, g4, decide_eq_true_eq, h8]
    by_cases h : 0 ≤ z ∧ z < 2^64
    · rw [if_pos h, if_pos h, hu8 h]
    · rw [if_neg h, if_neg h]
  · simp only [getDouble, n1, n2, g1, g2, g3, g4, decide_eq_true_eq, h4, h8]
    rw [if_neg (by decide), if_neg (by decide)]
    by_cases h1 : -2^31 ≤ z ∧ z < 2^31
    · rw [if_pos h1, hi4 h1]
    · rw [if_neg h1]
      by_cases h2 : 0 ≤ z ∧ z < 2^32
      · rw [if_pos h2, hu4 h2, Int.toNat_of_nonneg h2.1]
      · rw [if_neg h2]
        by_cases h3 : -2^63 ≤ z ∧ z < 2^63
        · rw [if_pos h3, hi8 h3]
        · have h4 : 0 ≤ z ∧ z < 2^64 := by omega
          rw [if_neg h3, if_pos h4, hu8 h4, Int.toNat_of_nonneg h4.1]

theorem int_flags (z : Int) (h : -2^31 ≤ z ∧ z < 2^31) : FlagsOk (if 0 ≤ z then numberIntFlag ||| kUint ||| kUint64 else numberIntFlag) z := by
  by_cases h0 : 0 ≤ z
  · rw [if_pos h0]
    refine ⟨by decide, by decide, ?_, ?_, ?_, ?_⟩
    · exact ⟨fun _ => h, fun _ => by decide⟩
    · exact ⟨fun _ => by omega, fun _ => by decide⟩
    · exact ⟨fun _ => by omega, fun _ => by decide⟩
    · exact ⟨fun _ => by omega, fun _ => by decide⟩
  · rw [if_neg h0]
    refine ⟨by decide, by decide, ?_, ?_, ?_, ?_⟩
    · exact ⟨fun _ => h, fun _ => by decide⟩
    · exact ⟨fun k => absurd k (by decide), fun _ => by omega⟩
    · exact ⟨fun _ => by omega, fun _ => by decide⟩
    · exact ⟨fun k => absurd k (by decide), fun _ => by omega⟩

theorem uint_flags (u : Nat) (h : u < 2^32) : FlagsOk (if u &&& 0x80000000 ≠ 0 then numberUintFlag else numberUintFlag ||| kInt ||| kInt64) (u : Int) := by
  by_cases h0 : u < 2^31
  · rw [if_neg (by rw [Decidable.not_not]; exact (mask31' u h).mpr h0)]
    refine ⟨by decide, by decide, ?_, ?_, ?_, ?_⟩
    · exact ⟨fun _ => by omega, fun _ => by decide⟩
    · exact ⟨fun _ => by omega, fun _ => by decide⟩
    · exact ⟨fun _ => by omega, fun _ => by decide⟩
    · exact ⟨fun _ => by omega, fun _ => by decide⟩
  · rw [if_pos (fun e => h0 ((mask31' u h).mp e))]
    refine ⟨by decide, by decide, ?_, ?_, ?_, ?_⟩
    · exact ⟨fun k => absurd k (by decide), fun _ => by omega⟩
    · exact ⟨fun _ => by omega, fun _ => by decide⟩
    · exact ⟨fun _ => by omega, fun _ => by decide⟩
    · exact ⟨fun _ => by omega, fun _ => by decide⟩

theorem int64_flags (z : Int) (h : -2^63 ≤ z ∧ z < 2^63) : FlagsOk (int64Flags z) z := by
  simp only [int64Flags]
  by_cases h0 : 0 ≤ z
  · rw [if_pos h0]
    have m1 := mask32 (toU64 z) (toU64_lt z)
    have m2 := mask31 (toU64 z) (toU64_lt z)
    rw [toU64_nonneg z h0 (by omega)] at m1 m2 ⊢
    by_cases h1 : z < 2^32
    · rw [if_pos (m1.mpr (by omega))]
      by_cases h2 : z < 2^31
      · rw [if_pos (m2.mpr (by omega))]
        refine ⟨by decide, by decide, ?_, ?_, ?_, ?_⟩ <;> exact ⟨fun _ => by omega, fun _ => by decide⟩
      · rw [if_neg (fun e => by have := m2.mp e; omega)]
        refine ⟨by decide, by decide, ⟨fun k => absurd k (by decide), fun _ => by omega⟩, ?_, ?_, ?_⟩ <;> exact ⟨fun _ => by omega, fun _ => by decide⟩
    · rw [if_neg (fun e => by have := m1.mp e; omega), if_neg (fun e => by have := m2.mp e; omega)]
      refine ⟨by decide, by decide, ⟨fun k => absurd k (by decide), fun _ => by omega⟩, ⟨fun k => absurd k (by decide), fun _ => by omega⟩, ?_, ?_⟩ <;>
        exact ⟨fun _ => by omega, fun _ => by decide⟩
  · rw [if_neg h0]
    by_cases h1 : -2^31 ≤ z
    · rw [if_pos h1]
      refine ⟨by decide, by decide, ⟨fun _ => by omega, fun _ => by decide⟩, ⟨fun k => absurd k (by decide), fun _ => by omega⟩,
        ⟨fun _ => by omega, fun _ => by decide⟩, ⟨fun k => absurd k (by decide), fun _ => by omega⟩⟩
    · rw [if_neg h1]
      refine ⟨by decide, by decide, ⟨fun k => absurd k (by decide), fun _ => by omega⟩, ⟨fun k => absurd k (by decide), fun _ => by omega⟩,
        ⟨fun _ => by omega, fun _ => by decide⟩, ⟨fun k => absurd k (by decide), fun _ => by omega⟩⟩

theorem uint64_flags (u : Nat) (h : u < 2^64) : FlagsOk (uint64Flags u) (u : Int) := by
  simp only [uint64Flags]
  have m1 := mask63 u h
  have m2 := mask32 u h
  have m3 := mask31 u h
  by_cases h1 : u < 2^63
  · rw [if_pos (m1.mpr h1)]
    by_cases h2 : u < 2^32
    · rw [if_pos (m2.mpr h2)]
      by_cases h3 : u < 2^31
      · rw [if_pos (m3.mpr h3)]
        refine ⟨by decide, by decide, ?_, ?_, ?_, ?_⟩ <;> exact ⟨fun _ => by omega, fun _ => by decide⟩
      · rw [if_neg (fun e => h3 (m3.mp e))]
        refine ⟨by decide, by decide, ⟨fun k => absurd k (by decide), fun _ => by omega⟩, ?_, ?_, ?_⟩ <;> exact ⟨fun _ => by omega, fun _ => by decide⟩
    · rw [if_neg (fun e => h2 (m2.mp e)), if_neg (fun e => by have := m3.mp e; omega)]
      refine ⟨by decide, by decide, ⟨fun k => absurd k (by decide), fun _ => by omega⟩, ⟨fun k => absurd k (by decide), fun _ => by omega⟩, ?_, ?_⟩ <;>
        exact ⟨fun _ => by omega, fun _ => by decide⟩
  · rw [if_neg (fun e => h1 (m1.mp e)), if_neg (fun e => by have := m2.mp e; omega), if_neg (fun e => by have := m3.mp e; omega)]
    refine ⟨by decide, by decide, ⟨fun k => absurd k (by decide), fun _ => by omega⟩, ⟨fun k => absurd k (by decide), fun _ => by omega⟩,
      ⟨fun k => absurd k (by decide), fun _ => by omega⟩, ⟨fun _ => by omega, fun _ => by decide⟩⟩

theorem toU64_nat (u : Nat) (h : u < 2^64) : toU64 (u : Int) = u := by
  rw [toU64_nonneg _ (by omega) (by omega)]
  omega

/-- C157 for numbers: all constructors, all values of their types. -/
theorem C157_numbers (m : Mem) (v : Nat) :
    (∀ z : Int, -2^31 ≤ z ∧ z < 2^31 → IsInteger (mkInt m v z) v z) ∧
    (∀ u : Nat, u < 2^32 → IsInteger (mkUint m v u) v u) ∧
    (∀ z : Int, -2^63 ≤ z ∧ z < 2^63 → IsInteger (mkInt64 m v z) v z) ∧
    (∀ u : Nat, u < 2^64 → IsInteger (mkUint64 m v u) v u) ∧
    (∀ d : Nat, d < 2^64 → IsReal (mkDouble m v d) v d) := by
  refine ⟨fun z h => integer_ok m v _ z (int_flags z h) (by omega), fun u h => ?_, fun z h => integer_ok m v _ z (int64_flags z h) (by omega), fun u h => ?_, fun d h => ?_⟩
  · have := integer_ok m v _ u (uint_flags u h) (by omega)
    rw [toU64_nat u (by omega)] at this
    exact this
  · have := integer_ok m v _ u (uint64_flags u h) (by omega)
    rw [toU64_nat u h] at this
    exact this
  · have hfl : flags (mkDouble m v d) v = numberDoubleFlag := flags_set _ v _ (by decide)
    have h8 : loadNat (mkDouble m v d) v 8 = d := by
      simp only [mkDouble]
      rw [payload_set _ v _ 8 (by omega)]
      have := loadNat_storeNat m v 8 d 0 8 (by omega)
      simp only [Nat.add_zero, Nat.pow_zero, Nat.div_one] at this
      rw [this]
      exact Nat.mod_eq_of_lt h
    have b : ∀ k r, (numberDoubleFlag &&& k != 0) = r → has (mkDouble m v d) v k = r := by
      intro k r hk; rw [has, hfl]; exact hk
    have n1 : isNumber (mkDouble m v d) v = true := b _ _ (by decide)
    have n2 : isDouble (mkDouble m v d) v = true := b _ _ (by decide)
    have e : ∀ k, numberDoubleFlag ≠ k → (flags (mkDouble m v d) v == k) = false := fun k hk => by
      rw [hfl]; exact beq_false_of_ne hk
    have i1 : isInt (mkDouble m v d) v = false := b _ _ (by decide)
    have i2 : isUint (mkDouble m v d) v = false := b _ _ (by decide)
    have i3 : isInt64 (mkDouble m v d) v = false := b _ _ (by decide)
    have i4 : isUint64 (mkDouble m v d) v = false := b _ _ (by decide)
    refine ⟨⟨by rw [getType, hfl]; decide, n1, n2⟩, ⟨b _ _ (by decide), b _ _ (by decide), e _ (by decide), e _ (by decide), e _ (by decide), e _ (by decide), e _ (by decide)⟩,
      ⟨by simp [getInt, i1], by simp [getUint, i2], by simp [getInt64, i3], by simp [getUint64, i4]⟩, by simp [getDouble, n1, n2, h8]⟩

/-! ### Strings -/

/-- What is common to values with the flags of strings. -/
theorem text_ok (m : Mem) (v f : Nat) (s : List Nat) (hfl : flags m v = f) (hf : f = constStringFlag ∨ f = copyStringFlag ∨ f = shortStringFlag)
    (ht : load m (stringPointer m v) (stringLength m v) = s) (hz : m (stringPointer m v + s.length) = 0) : IsText m v s := by
  have b : ∀ k r, (f &&& k != 0) = r → has m v k = r := by
    intro k r hk; rw [has, hfl]; exact hk
  have e : ∀ k, f ≠ k → (flags m v == k) = false := fun k hk => by
    rw [hfl]; exact beq_false_of_ne hk
  have s1 : isString m v = true := b _ _ (by rcases hf with rfl | rfl | rfl <;> decide)
  have i0 : isNumber m v = false := b _ _ (by rcases hf with rfl | rfl | rfl <;> decide)
  have i1 : isInt m v = false := b _ _ (by rcases hf with rfl | rfl | rfl <;> decide)
  have i2 : isUint m v = false := b _ _ (by rcases hf with rfl | rfl | rfl <;> decide)
  have i3 : isInt64 m v = false := b _ _ (by rcases hf with rfl | rfl | rfl <;> decide)
  have i4 : isUint64 m v = false := b _ _ (by rcases hf with rfl | rfl | rfl <;> decide)
  have i5 : isBool m v = false := b _ _ (by rcases hf with rfl | rfl | rfl <;> decide)
  refine ⟨⟨?_, s1⟩, ⟨i0, i5, ?_, ?_, ?_, ?_, ?_⟩, ⟨by simp [getInt, i1], by simp [getUint, i2], by simp [getInt64, i3], by simp [getUint64, i4], by simp [getDouble, i0]⟩, by simp [getString, s1, ht], hz⟩
  · rw [getType, hfl]; rcases hf with rfl | rfl | rfl <;> decide
  · exact e _ (by rcases hf with rfl | rfl | rfl <;> decide)
  · exact e _ (by rcases hf with rfl | rfl | rfl <;> decide)
  · exact e _ (by rcases hf with rfl | rfl | rfl <;> decide)
  · exact e _ (by rcases hf with rfl | rfl | rfl <;> decide)
  · exact e _ (by rcases hf with rfl | rfl | rfl <;> decide)

/-- The two halves of the pointer word. -/
theorem word_split (m : Mem) (v : Nat) (h : Bytes m) : ∃ lo, lo < 2^48 ∧ loadNat m (v + 8) 8 = lo + 2^48 * flags m v ∧ flags m v < 2^16 := by
  obtain ⟨h1, h2⟩ := loadNat_split m (v + 8) 6 2 h
  obtain ⟨_, h3⟩ := loadNat_split m (v + 14) 2 0 h
  refine ⟨loadNat m (v + 8) 6, h2, ?_, h3⟩
  rw [h1]
  rfl

theorem high_low (lo hi : Nat) (h : lo < 2^48) (h2 : hi < 2^16) : (lo + 2^48 * hi) &&& 0xFFFF000000000000 = 2^48 * hi ∧ (lo + 2^48 * hi) &&& 0x0000FFFFFFFFFFFF = lo := by
  constructor
  · apply Nat.eq_of_testBit_eq
    intro i
    have e : (0xFFFF000000000000 : Nat) = 2^48 * (2^16 - 1) := by decide
    rw [Nat.testBit_and, e, Nat.add_comm lo, Nat.testBit_two_pow_mul_add _ h, Nat.testBit_two_pow_mul, Nat.testBit_two_pow_mul]
    by_cases hi48 : i < 48
    · simp [hi48, Nat.not_le.mpr hi48]
    · rw [if_neg hi48]
      by_cases hi64 : i - 48 < 16
      · rw [Nat.testBit_two_pow_sub_one]
        simp [hi64, Nat.le_of_not_lt hi48]
      · have : hi.testBit (i - 48) = false := Nat.testBit_lt_two_pow (Nat.lt_of_lt_of_le h2 (Nat.pow_le_pow_right (by decide) (by omega)))
        simp [this]
  · rw [show (0x0000FFFFFFFFFFFF : Nat) = 2^48 - 1 by decide, Nat.and_two_pow_sub_one_eq_mod]
    omega

theorem or_low (hi p : Nat) (h : p < 2^48) : (2^48 * hi) ||| p = p + 2^48 * hi := by
  rw [Nat.two_pow_add_eq_or_of_lt h hi |>.symm]
  omega

theorem setPointer_ok (m : Mem) (v p : Nat) (h : Bytes m) (hp : p < 2^48) :
    flags (setPointer m v p) v = flags m v ∧ getPointer (setPointer m v p) v = p ∧ loadNat (setPointer m v p) v 4 = loadNat m v 4 := by
  obtain ⟨lo, h1, h2, h3⟩ := word_split m v h
  obtain ⟨e1, _⟩ := high_low lo (flags m v) h1 h3
  have e : setPointer m v p = storeNat m (v + 8) 8 (p + 2^48 * flags m v) := by
    simp only [setPointer]
    rw [h2, e1, or_low _ _ hp]
  rw [e]
  have w := loadNat_storeNat m (v + 8) 8 (p + 2^48 * flags m v) 0 8 (by omega)
  have wf := loadNat_storeNat m (v + 8) 8 (p + 2^48 * flags m v) 6 2 (by omega)
  refine ⟨?_, ?_, loadNat_out m (v + 8) v 8 4 _ (by omega)⟩
  · have : flags (storeNat m (v + 8) 8 (p + 2^48 * flags m v)) v = loadNat (storeNat m (v + 8) 8 (p + 2^48 * flags m v)) (v + 8 + 6) 2 := rfl
    rw [this, wf]
    omega
  · simp only [Nat.add_zero, Nat.pow_zero, Nat.div_one] at w
    rw [getPointer, w, Nat.mod_eq_of_lt (by omega)]
    exact (high_low p (flags m v) hp h3).2

/-- A number has no characters. -/
theorem C157_no_text (m : Mem) (v : Nat) : (∀ z, IsInteger m v z → getString m v = none) ∧ (∀ d, IsReal m v d → getString m v = none) := by
  refine ⟨fun z h => ?_, fun d h => ?_⟩
  · simp [getString, h.notOther.2.1]
  · simp [getString, h.notOther.1]

theorem truth_ok (m : Mem) (v f : Nat) (b : Option Bool) (hf : flags m v = f)
    (h : b = some true ∧ f = 10 ∨ b = some false ∧ f = 9 ∨ b = none ∧ f = 0) : IsTruth m v b := by
  have hh : ∀ k r, (f &&& k != 0) = r → has m v k = r := fun k r hk => by rw [has, hf]; exact hk
  have e : ∀ k r, (f == k) = r → (flags m v == k) = r := fun k r hk => by rw [hf]; exact hk
  rcases h with ⟨rfl, rfl⟩ | ⟨rfl, rfl⟩ | ⟨rfl, rfl⟩ <;>
  · have i1 : isInt m v = false := hh _ _ (by decide)
    have i2 : isUint m v = false := hh _ _ (by decide)
    have i3 : isInt64 m v = false := hh _ _ (by decide)
    have i4 : isUint64 m v = false := hh _ _ (by decide)
    have i5 : isNumber m v = false := hh _ _ (by decide)
    have i6 : isString m v = false := hh _ _ (by decide)
    exact ⟨by rw [getType, hf]; decide, ⟨hh _ _ (by decide), e _ _ (by decide), e _ _ (by decide), e _ _ (by decide)⟩,
      ⟨i5, i6, e _ _ (by decide), e _ _ (by decide)⟩,
      ⟨by simp [getInt, i1], by simp [getUint, i2], by simp [getInt64, i3], by simp [getUint64, i4], by simp [getDouble, i5], by simp [getString, i6]⟩⟩

/-- C157 for booleans and null. -/
theorem C157_truth (m : Mem) (v : Nat) : (∀ b, IsTruth (mkBool m v b) v (some b)) ∧ IsTruth (mkNull m v) v none := by
  refine ⟨fun b => ?_, ?_⟩
  · cases b
    · exact truth_ok _ v 9 _ (flags_set m v falseFlag (by decide)) (Or.inr (Or.inl ⟨rfl, rfl⟩))
    · exact truth_ok _ v 10 _ (flags_set m v trueFlag (by decide)) (Or.inl ⟨rfl, rfl⟩)
  · exact truth_ok _ v 0 _ (flags_set m v nullFlag (by decide)) (Or.inr (Or.inr ⟨rfl, rfl⟩))

/-- C157 for strings: of any length, with any characters; `p` is the memory that the allocator gives to a long string. -/
theorem C157_strings (m : Mem) (v p : Nat) (s : List Nat) (hm : Bytes m) (hl : s.length < 2^32) (hp : p < 2^48)
    (hd : p + s.length + 1 ≤ v ∨ v + 16 ≤ p) : IsText (mkString m v p s) v s := by
  by_cases h : s.length ≤ maxSize
  · have e : mkString m v p s = store (store (store (setFlags m v shortStringFlag) (v + maxSize) [maxSize - s.length]) v s) (v + s.length) [0] := by
      rw [mkString, if_pos h]
    simp only [maxSize] at h e
    have hfl : flags (mkString m v p s) v = shortStringFlag := by
      rw [e]
      simp only [flags, loadNat]
      rw [load_store_out _ _ _ _ _ (by simp; omega), load_store_out _ _ _ _ _ (by omega), load_store_out _ _ _ _ _ (by simp)]
      exact flags_set m v _ (by decide)
    have hin : has (mkString m v p s) v kInlineStr = true := by rw [has, hfl]; decide
    have hp' : stringPointer (mkString m v p s) v = v := by rw [stringPointer, hin]; rfl
    have hlen : stringLength (mkString m v p s) v = s.length := by
      rw [stringLength, hin, if_pos rfl]
      simp only [maxSize]
      by_cases h13 : s.length = 13
      · have : mkString m v p s (v + 13) = 0 := by
          rw [e, ← h13]
          exact store_in _ _ [0] 0 (by simp)
        rw [this, h13]
      · have : mkString m v p s (v + 13) = 13 - s.length := by
          rw [e, store_out _ _ _ _ (by simp; omega), store_out _ _ _ _ (by omega)]
          exact store_in _ _ [13 - s.length] 0 (by simp)
        rw [this]
        omega
    refine text_ok _ v _ s hfl (Or.inr (Or.inr rfl)) ?_ ?_
    · rw [hp', hlen, e, load_store_out _ _ _ _ _ (by omega)]
      have := load_store (store (setFlags m v shortStringFlag) (v + 13) [13 - s.length]) v s 0 s.length (by omega)
      rw [show v + 0 = v from rfl] at this
      rw [this]
      simp
    · rw [hp', e]
      exact store_in _ _ [0] 0 (by simp)
  · have e : mkString m v p s = store (store (setPointer (storeNat (setFlags m v copyStringFlag) v 4 s.length) v p) p s) (p + s.length) [0] := by
      rw [mkString, if_neg h]
    have hb1 : Bytes (setFlags m v copyStringFlag) := bytes_storeNat _ _ _ _ hm
    have hb2 : Bytes (storeNat (setFlags m v copyStringFlag) v 4 s.length) := bytes_storeNat _ _ _ _ hb1
    obtain ⟨q1, q2, q3⟩ := setPointer_ok _ v p hb2 hp
    have f1 : flags (storeNat (setFlags m v copyStringFlag) v 4 s.length) v = copyStringFlag := by
      rw [flags, loadNat_out _ _ _ _ _ _ (by omega)]
      exact flags_set m v _ (by decide)
    have l1 : loadNat (storeNat (setFlags m v copyStringFlag) v 4 s.length) v 4 = s.length := by
      have := loadNat_storeNat (setFlags m v copyStringFlag) v 4 s.length 0 4 (by omega)
      simp only [Nat.add_zero, Nat.pow_zero, Nat.div_one] at this
      rw [this]
      exact Nat.mod_eq_of_lt hl
    rw [f1] at q1
    rw [l1] at q3
    generalize setPointer (storeNat (setFlags m v copyStringFlag) v 4 s.length) v p = m1 at e q1 q2 q3
    have keep : ∀ a k, v ≤ a → a + k ≤ v + 16 → loadNat (mkString m v p s) a k = loadNat m1 a k := by
      intro a k h1 h2
      rw [e]
      simp only [loadNat]
      rw [load_store_out _ _ _ _ _ (by simp; omega), load_store_out _ _ _ _ _ (by omega)]
    have hfl : flags (mkString m v p s) v = copyStringFlag := by
      rw [flags, keep _ _ (by omega) (by omega)]
      exact q1
    have hin : has (mkString m v p s) v kInlineStr = false := by rw [has, hfl]; decide
    have hp' : stringPointer (mkString m v p s) v = p := by
      rw [stringPointer, hin, if_neg (by decide), getPointer, keep _ _ (by omega) (by omega)]
      exact q2
    have hlen : stringLength (mkString m v p s) v = s.length := by
      rw [stringLength, hin, if_neg (by decide), keep _ _ (by omega) (by omega)]
      exact q3
    refine text_ok _ v _ s hfl (Or.inr (Or.inl rfl)) ?_ ?_
    · rw [hp', hlen, e, load_store_out _ _ _ _ _ (by omega)]
      have := load_store m1 p s 0 s.length (by omega)
      rw [Nat.add_zero] at this
      rw [this]
      simp
    · rw [hp', e]
      exact store_in _ _ [0] 0 (by simp)

/-- C157 for constant strings, which are not copied: the value is the string at this address, as long as that is not changed. -/
theorem C157_const (m : Mem) (v p : Nat) (s : List Nat) (hm : Bytes m) (hl : s.length < 2^32) (hp : p < 2^48)
    (hd : p + s.length + 1 ≤ v ∨ v + 16 ≤ p) (ht : load m p s.length = s) (hz : m (p + s.length) = 0) : IsText (mkConstString m v p s.length) v s := by
  have hb1 : Bytes (setFlags m v constStringFlag) := bytes_storeNat _ _ _ _ hm
  obtain ⟨q1, q2, _⟩ := setPointer_ok _ v p hb1 hp
  rw [flags_set m v _ (by decide)] at q1
  have out : ∀ i, i < v ∨ v + 16 ≤ i → mkConstString m v p s.length i = m i := by
    intro i hi
    simp only [mkConstString, setPointer, setFlags, storeNat]
    rw [store_out _ _ _ _ (by rw [le_length]; omega), store_out _ _ _ _ (by rw [le_length]; omega), store_out _ _ _ _ (by rw [le_length]; omega)]
  have hfl : flags (mkConstString m v p s.length) v = constStringFlag := by
    rw [flags, mkConstString, loadNat_out _ _ _ _ _ _ (by omega)]
    exact q1
  have hin : has (mkConstString m v p s.length) v kInlineStr = false := by rw [has, hfl]; decide
  have hp' : stringPointer (mkConstString m v p s.length) v = p := by
    rw [stringPointer, hin, if_neg (by decide), getPointer, mkConstString, loadNat_out _ _ _ _ _ _ (by omega)]
    exact q2
  have hlen : stringLength (mkConstString m v p s.length) v = s.length := by
    rw [stringLength, hin, if_neg (by decide), mkConstString]
    have := loadNat_storeNat (setPointer (setFlags m v constStringFlag) v p) v 4 s.length 0 4 (by omega)
    simp only [Nat.add_zero, Nat.pow_zero, Nat.div_one] at this
    rw [this]
    exact Nat.mod_eq_of_lt hl
  refine text_ok _ v _ s hfl (Or.inl rfl) ?_ ?_
  · rw [hp', hlen, load_congr _ m _ _ (fun i h1 h2 => out i (by omega)), ht]
  · rw [hp', out _ (by omega), hz]

/-! ### Moving -/

theorem take_drop_load (m : Mem) (a n i k : Nat) (h : i + k ≤ n) : ((load m a n).drop i).take k = load m (a + i) k := by
  induction i generalizing a n with
  | zero =>
    simp only [List.drop_zero, Nat.add_zero]
    induction k generalizing a n with
    | zero => simp [load]
    | succ k ih =>
      cases n with
      | zero => omega
      | succ n => simp [load, ih (a + 1) n (by omega)]
  | succ i ih =>
    cases n with
    | zero => omega
    | succ n =>
      simp only [load, List.drop_succ_cons]
      rw [ih (a + 1) n (by omega), show a + 1 + i = a + (i + 1) by omega]

/-- The 16 bytes at the new place. -/
theorem moved (m : Mem) (dst src i k : Nat) (hd : dst + 16 ≤ src ∨ src + 16 ≤ dst) (h : i + k ≤ 16) :
    load (rawAssign m dst src) (dst + i) k = load m (src + i) k := by
  simp only [rawAssign, setFlags, storeNat]
  rw [load_store_out _ _ _ _ _ (by rw [le_length]; omega), load_store _ _ _ i k (by rw [load_length]; exact h), take_drop_load m src 16 i k h]

/-- C157 for moves: a number is the same number at its new place, and the old value is null. -/
theorem C157_moved_number (m : Mem) (dst src : Nat) (z : Int) (hd : dst + 16 ≤ src ∨ src + 16 ≤ dst) (h : IsInteger m src z) :
    IsInteger (rawAssign m dst src) dst z ∧ isNull (rawAssign m dst src) src = true := by
  have hf : flags (rawAssign m dst src) dst = flags m src := by
    simp only [flags, loadNat]; rw [moved m dst src 14 2 hd (by omega)]
  have h8 : loadNat (rawAssign m dst src) dst 8 = loadNat m src 8 := by
    have := moved m dst src 0 8 hd (by omega)
    simp only [loadNat]
    exact congrArg unle this
  have h4 : loadNat (rawAssign m dst src) dst 4 = loadNat m src 4 := by
    have := moved m dst src 0 4 hd (by omega)
    simp only [loadNat]
    exact congrArg unle this
  obtain ⟨h1, h2, h3, h4', h5, h6, h7⟩ := h
  refine ⟨?_, ?_⟩
  · constructor <;> simp only [getType, isNumber, isDouble, isString, isBool, isNull, isTrue, isFalse, isObject, isArray, getInt, getUint, getInt64, getUint64, getDouble,
      isInt, isUint, isInt64, isUint64, has, hf, h8, h4] at *
    · exact h1
    · exact h2
    · exact h3
    · exact h4'
    · exact h5
    · exact h6
    · exact h7
  · simp only [isNull, rawAssign]
    rw [flags_set _ _ _ (by decide)]
    decide

/-- A string is the same string at its new place, if its characters are not in memory that the move changes. A short string moves with its value. -/
theorem C157_moved_string (m : Mem) (dst src : Nat) (s : List Nat) (hd : dst + 16 ≤ src ∨ src + 16 ≤ dst) (h : IsText m src s)
    (hp : has m src kInlineStr = true ∧ s.length ≤ 13 ∨ has m src kInlineStr = false ∧
      (getPointer m src + s.length + 1 ≤ dst ∨ dst + 16 ≤ getPointer m src) ∧ (getPointer m src + s.length + 1 ≤ src ∨ src + 16 ≤ getPointer m src)) :
    IsText (rawAssign m dst src) dst s ∧ isNull (rawAssign m dst src) src = true := by
  have hf : flags (rawAssign m dst src) dst = flags m src := by
    simp only [flags, loadNat]; rw [moved m dst src 14 2 hd (by omega)]
  have hh : ∀ k, has (rawAssign m dst src) dst k = has m src k := fun k => by simp only [has, hf]
  have h4 : loadNat (rawAssign m dst src) dst 4 = loadNat m src 4 := by
    have := moved m dst src 0 4 hd (by omega)
    simp only [loadNat]
    exact congrArg unle this
  have hg : getPointer (rawAssign m dst src) dst = getPointer m src := by
    simp only [getPointer, loadNat]
    rw [moved m dst src 8 8 hd (by omega)]
  have h1 : ∀ i, i < 16 → rawAssign m dst src (dst + i) = m (src + i) := by
    intro i hi
    have := moved m dst src i 1 hd (by omega)
    simpa [load] using this
  have out : ∀ i, (i < dst ∨ dst + 16 ≤ i) → (i < src ∨ src + 16 ≤ i) → rawAssign m dst src i = m i := by
    intro i i1 i2
    simp only [rawAssign, setFlags, storeNat]
    rw [store_out _ _ _ _ (by rw [le_length]; omega), store_out _ _ _ _ (by rw [load_length]; omega)]
  obtain ⟨k1, k2, k3, k4, k5⟩ := h
  have hs : isString m src = true := k1.2
  have ht : load m (stringPointer m src) (stringLength m src) = s := by
    simp only [getString, hs, if_true, Option.some.injEq] at k4
    exact k4
  have hlen : stringLength m src = s.length := by rw [← ht, load_length]
  have hlen' : stringLength (rawAssign m dst src) dst = stringLength m src := by
    simp only [stringLength, hh, h4]
    rw [h1 maxSize (by decide)]
  have both : load (rawAssign m dst src) (stringPointer (rawAssign m dst src) dst) s.length = s ∧
      rawAssign m dst src (stringPointer (rawAssign m dst src) dst + s.length) = 0 := by
    rw [hlen] at ht
    rcases hp with ⟨hi, hl⟩ | ⟨hi, hl1, hl2⟩
    · have e1 : stringPointer (rawAssign m dst src) dst = dst := by simp only [stringPointer, hh, hi, if_true]
      have e2 : stringPointer m src = src := by simp only [stringPointer, hi, if_true]
      rw [e2] at ht k5
      rw [e1]
      have := moved m dst src 0 s.length hd (by omega)
      exact ⟨this.trans ht, by rw [h1 _ (by omega)]; exact k5⟩
    · have e1 : stringPointer (rawAssign m dst src) dst = getPointer m src := by simp [stringPointer, hh, hi, hg]
      have e2 : stringPointer m src = getPointer m src := by simp [stringPointer, hi]
      rw [e2] at ht k5
      rw [e1]
      exact ⟨by rw [load_congr _ m _ _ (fun i i1 i2 => out i (by omega) (by omega)), ht], by rw [out _ (by omega) (by omega)]; exact k5⟩
  refine ⟨⟨?_, ?_, ?_, ?_, both.2⟩, ?_⟩
  · simp only [getType, isString, hf, hh] at *
    exact k1
  · simp only [isNumber, isBool, isNull, isTrue, isFalse, isObject, isArray, hf, hh] at *
    exact k2
  · obtain ⟨n1, n2, n3, n4, n5⟩ := k3
    have i1 : isInt m src = false := by simp only [getInt] at n1; cases hx : isInt m src <;> simp_all
    have i2 : isUint m src = false := by simp only [getUint] at n2; cases hx : isUint m src <;> simp_all
    have i3 : isInt64 m src = false := by simp only [getInt64] at n3; cases hx : isInt64 m src <;> simp_all
    have i4 : isUint64 m src = false := by simp only [getUint64] at n4; cases hx : isUint64 m src <;> simp_all
    have i0 : isNumber m src = false := k2.1
    simp only [isInt, isUint, isInt64, isUint64, isNumber] at i0 i1 i2 i3 i4
    simp [getInt, getUint, getInt64, getUint64, getDouble, isInt, isUint, isInt64, isUint64, isNumber, hh, i0, i1, i2, i3, i4]
  · have hs' : isString (rawAssign m dst src) dst = true := by simp only [isString, hh]; exact hs
    simp only [getString, hs', if_true]
    rw [hlen', hlen, both.1]
  · simp only [isNull, rawAssign]
    rw [flags_set _ _ _ (by decide)]
    decide

/-! ### Non-vacuity -/

def blank : Mem := fun _ => 0

example : getInt (mkInt64 blank 100 (-5)) 100 = some (-5) ∧ getUint (mkInt64 blank 100 (-5)) 100 = none ∧
    getInt (mkUint64 blank 100 4294967295) 100 = none ∧ getUint (mkUint64 blank 100 4294967295) 100 = some 4294967295 := by decide +kernel

/-- Thirteen characters are stored in the value, fourteen are not. -/
example : stringPointer (mkString blank 100 500 [1, 2, 3, 4, 5, 6, 7, 8, 9, 10, 11, 12, 13]) 100 = 100 ∧
    getString (mkString blank 100 500 [1, 2, 3, 4, 5, 6, 7, 8, 9, 10, 11, 12, 13]) 100 = some [1, 2, 3, 4, 5, 6, 7, 8, 9, 10, 11, 12, 13] ∧
    stringPointer (mkString blank 100 500 [1, 2, 3, 4, 5, 6, 7, 8, 9, 10, 11, 12, 13, 14]) 100 = 500 := by decide +kernel

end Verif.JsonValue
