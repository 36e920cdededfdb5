import Verif.Model.Dtoa
import Verif.Props.Itoa
import Verif.Props.JsonBuffer
/-
C147: the text of a floating point number denotes the decimal number that was found for it.
-/
namespace Verif.Dtoa
open Verif.Itoa (Str lut char0)
open Verif.Receiver (digitChar dec)
open Verif.JsonText (fold)

namespace Spec

/-- One or more digits. -/
def Digits (s : List Char) : Prop := s ≠ [] ∧ ∀ c ∈ s, 48 ≤ c.toNat ∧ c.toNat ≤ 57

/-- The fraction of a number and its digits. -/
def Fraction (s digits : List Char) : Prop := s = [] ∧ digits = [] ∨ s = '.' :: digits ∧ Digits digits

/-- The exponent of a number and its value. -/
def Exponent (s : List Char) (x : Int) : Prop :=
  s = [] ∧ x = 0 ∨ (∃ u, s = 'e' :: u ∧ Digits u ∧ x = Itoa.Spec.value u) ∨
    ∃ u, s = 'e' :: '-' :: u ∧ Digits u ∧ x = -(Itoa.Spec.value u : Int)

/-- A JSON number (RFC 8259, section 6) that does not look like an integer, and what it denotes. -/
def Denotes (s : List Char) (q : Rat) : Prop :=
  ∃ (neg : Bool) (i f d e : List Char) (x : Int), s = (if neg then ['-'] else []) ++ (i ++ (f ++ e)) ∧ Itoa.Spec.Numeral i ∧
    Fraction f d ∧ Exponent e x ∧ (f ≠ [] ∨ e ≠ []) ∧
    q = (if neg then -1 else 1) * ((Itoa.Spec.value (i ++ d) : Nat) : Rat) * 10 ^ (x - d.length)

end Spec

/-! ## Texts in a buffer -/

theorem set_at (b : Buf) (i j : Nat) (c : Char) : (b.set i c).at' j = if j = i then c else b.at' j := rfl
theorem set_hi (b : Buf) (i : Nat) (c : Char) : (b.set i c).hi = max b.hi (i + 1) := rfl
theorem move_at (b : Buf) (d s n j : Nat) : (b.move d s n).at' j = if d ≤ j ∧ j < d + n then b.at' (j - d + s) else b.at' j := rfl
theorem move_hi (b : Buf) (d s n : Nat) : (b.move d s n).hi = max b.hi (d + n) := rfl

theorem text_eq (b : Buf) (n : Nat) (l : Str) (hn : l.length = n) (h : ∀ i (hi : i < l.length), l[i] = b.at' i) : b.text n = l := by
  refine List.ext_getElem (by simp [Buf.text, hn]) ?_
  intro i h1 h2
  simp only [Buf.text, List.getElem_map, List.getElem_range]
  exact (h i h2).symm

theorem zeros_at (n : Nat) (b : Buf) (s j : Nat) : (b.zeros s n).at' j = if s ≤ j ∧ j < s + n then '0' else b.at' j := by
  induction n generalizing b s with
  | zero => simp only [Buf.zeros]; rw [if_neg (by omega)]
  | succ n ih =>
    simp only [Buf.zeros]
    rw [ih]
    simp only [Buf.set]
    by_cases h : j = s
    · rw [if_neg (by omega), if_pos h, if_pos (by omega)]
    · rw [if_neg h]
      by_cases h2 : s + 1 ≤ j ∧ j < s + 1 + n
      · rw [if_pos h2, if_pos (by omega)]
      · rw [if_neg h2, if_neg (by omega)]

theorem zeros_hi (n : Nat) (b : Buf) (s : Nat) : (b.zeros s n).hi ≤ max b.hi (s + n) := by
  induction n generalizing b s with
  | zero => simp only [Buf.zeros]; omega
  | succ n ih => simp only [Buf.zeros]; have := ih (b.set s '0') (s + 1); rw [set_hi] at this; omega

theorem of_at (ds : Str) (old : Nat → Char) (j : Nat) (h : j < ds.length) : (Buf.of ds old).at' j = ds[j] := by
  simp [Buf.of, h]

/-- The digits of an exponent as a text. -/
def expText (n : Nat) : Str :=
  if n ≥ 100 then [char0 (n / 100), (pair (n % 100)).1, (pair (n % 100)).2] else if n ≥ 10 then [(pair n).1, (pair n).2] else [char0 n]

/-- A text in front of which nothing changes, and then one more character. -/
theorem text_set (b : Buf) (n : Nat) (c : Char) : (b.set n c).text (n + 1) = b.text n ++ [c] := by
  simp only [Buf.text, List.range_succ, List.map_append, List.map_cons, List.map_nil]
  congr 1
  · refine List.map_congr_left ?_
    intro j hj
    have := List.mem_range.1 hj
    rw [set_at, if_neg (by omega)]
  · rw [set_at, if_pos rfl]

theorem expDigits_text (b : Buf) (i n : Nat) : (expDigits b i n).1.text (expDigits b i n).2 = b.text i ++ expText n := by
  simp only [expDigits, expText]
  split
  · rw [text_set, text_set, text_set]; simp
  · split
    · rw [text_set, text_set]; simp
    · rw [text_set]

theorem expDigits_hi (b : Buf) (i n : Nat) : (expDigits b i n).1.hi ≤ max b.hi (i + 3) := by
  simp only [expDigits]
  split
  · simp only [set_hi]; omega
  · split <;> simp only [set_hi] <;> omega

theorem writeExponent_text (b : Buf) (i : Nat) (k : Int) :
    (writeExponent b i k).1.text (writeExponent b i k).2 = b.text i ++ ((if k < 0 then ['-'] else []) ++ expText k.natAbs) := by
  simp only [writeExponent]
  split
  · rw [expDigits_text, text_set, show (-k).toNat = k.natAbs by omega]; simp
  · rw [expDigits_text, show k.toNat = k.natAbs by omega]; simp

theorem writeExponent_hi (b : Buf) (i : Nat) (k : Int) : (writeExponent b i k).1.hi ≤ max b.hi (i + 4) := by
  simp only [writeExponent]
  split
  · have := expDigits_hi (b.set i '-') (i + 1) (-k).toNat; simp only [set_hi] at this; omega
  · have := expDigits_hi b i k.toNat; omega

/-! ## The five shapes -/

theorem pretty_whole (ds : Str) (old : Nat → Char) (k : Int) (h0 : 0 ≤ k) (h1 : (ds.length : Int) + k ≤ 21) :
    (prettify (.of ds old) ds.length k places).1.text (prettify (.of ds old) ds.length k places).2 =
      ds ++ List.replicate k.toNat '0' ++ ['.', '0'] ∧
    (prettify (.of ds old) ds.length k places).1.hi ≤ ds.length + k.toNat + 2 := by
  have e : ((ds.length : Int) + k).toNat = ds.length + k.toNat := by omega
  simp only [prettify, if_pos (And.intro h0 h1), e]
  constructor
  · rw [text_set, text_set]
    simp only [List.append_assoc, List.cons_append, List.nil_append]
    rw [← List.append_assoc]
    congr 1
    refine text_eq _ _ _ (by simp) ?_
    intro i hi
    rw [zeros_at]
    simp only [List.length_append, List.length_replicate] at hi
    by_cases h : i < ds.length
    · rw [if_neg (by omega), of_at ds old i h, List.getElem_append_left h]
    · rw [if_pos (by omega), List.getElem_append_right (by omega)]; simp
  · have := zeros_hi k.toNat (.of ds old) ds.length
    simp only [set_hi] at this ⊢
    simp only [Buf.of] at this ⊢
    omega

theorem pretty_inner (ds : Str) (old : Nat → Char) (k : Int) (h0 : k < 0) (h1 : 0 < (ds.length : Int) + k) (h2 : (ds.length : Int) + k ≤ 21)
    (h3 : -324 ≤ k) :
    (prettify (.of ds old) ds.length k places).1.text (prettify (.of ds old) ds.length k places).2 =
      ds.take (ds.length + k).toNat ++ '.' :: ds.drop (ds.length + k).toNat ∧
    (prettify (.of ds old) ds.length k places).1.hi ≤ ds.length + 1 := by
  generalize hm : ((ds.length : Int) + k).toNat = m
  have hlt : m < ds.length := by omega
  simp only [prettify]
  rw [if_neg (by omega), if_pos (And.intro h1 h2), if_neg (by simp only [places]; omega), hm]
  constructor
  · refine text_eq _ _ _ (by simp; omega) ?_
    intro i hi
    simp only [List.length_append, List.length_take, List.length_cons, List.length_drop] at hi
    rw [set_at]
    by_cases h : i < m
    · rw [if_neg (by omega), move_at, if_neg (by omega), of_at ds old i (by omega), List.getElem_append_left (by simp; omega)]
      simp
    · rw [List.getElem_append_right (by simp; omega)]
      by_cases h' : i = m
      · subst h'
        rw [if_pos rfl]
        have : i - (ds.take i).length = 0 := by simp; omega
        simp only [this, List.getElem_cons_zero]
      · rw [if_neg h', move_at, if_pos (by omega)]
        have e : i - (ds.take m).length = (i - m - 1) + 1 := by simp; omega
        simp only [e, List.getElem_cons_succ, List.getElem_drop]
        rw [of_at ds old (i - (m + 1) + m) (by omega)]
        congr 1; omega
  · simp only [set_hi, move_hi, Buf.of]; omega

theorem pretty_small (ds : Str) (old : Nat → Char) (k : Int) (h1 : -6 < (ds.length : Int) + k) (h2 : (ds.length : Int) + k ≤ 0)
    (h4 : ds.length ≤ 17) (h5 : ds ≠ []) :
    (prettify (.of ds old) ds.length k places).1.text (prettify (.of ds old) ds.length k places).2 =
      '0' :: '.' :: (List.replicate (-(ds.length + k)).toNat '0' ++ ds) ∧
    (prettify (.of ds old) ds.length k places).1.hi ≤ ds.length + 7 := by
  have hd : 0 < ds.length := List.length_pos_iff.2 h5
  generalize hm : (-((ds.length : Int) + k)).toNat = m
  have eo : (2 - ((ds.length : Int) + k)).toNat = m + 2 := by omega
  simp only [prettify]
  rw [if_neg (by omega), if_neg (by omega), if_pos (And.intro h1 h2), if_neg (by simp only [places]; omega), eo]
  constructor
  · refine text_eq _ _ _ (by simp; omega) ?_
    intro i hi
    simp only [List.length_append, List.length_cons, List.length_replicate] at hi
    rw [zeros_at]
    match i, hi with
    | 0, _ => rfl
    | 1, _ => rfl
    | i + 2, hi =>
      simp only [List.getElem_cons_succ]
      by_cases h : i < m
      · rw [if_pos (by omega), List.getElem_append_left (by simpa using h)]; simp
      · rw [if_neg (by omega), List.getElem_append_right (by simpa using h), set_at, if_neg (by omega), set_at, if_neg (by omega), move_at,
          if_pos (by omega), of_at ds old _ (by omega)]
        congr 1; simp
  · have := zeros_hi m ((((Buf.of ds old).move (m + 2) 0 ds.length).set 0 '0').set 1 '.') 2
    simp only [set_hi, move_hi, Nat.add_sub_cancel] at this ⊢
    simp only [Buf.of] at this ⊢
    omega

theorem pretty_one (d : Char) (old : Nat → Char) (k : Int) (h1 : (1 : Int) + k ≤ -6 ∨ 21 < (1 : Int) + k) (h2 : -324 ≤ k) :
    (prettify (.of [d] old) 1 k places).1.text (prettify (.of [d] old) 1 k places).2 =
      d :: 'e' :: ((if k < 0 then ['-'] else []) ++ expText k.natAbs) ∧
    (prettify (.of [d] old) 1 k places).1.hi ≤ 6 := by
  simp only [prettify]
  have ek : ((1 : Nat) : Int) + k - 1 = k := by omega
  rw [if_neg (by omega), if_neg (by omega), if_neg (by omega), if_neg (by simp only [places]; omega), if_pos trivial, ek]
  constructor
  · rw [writeExponent_text, text_set]
    have : (Buf.of [d] old).text 1 = [d] := by simp [Buf.text, Buf.of, List.range_succ]
    rw [this]; simp
  · have := writeExponent_hi ((Buf.of [d] old).set 1 'e') 2 k
    simp only [set_hi] at this
    simp only [Buf.of, List.length_singleton] at this ⊢
    omega

theorem pretty_sci (d : Char) (ds : Str) (hd : ds ≠ []) (old : Nat → Char) (k : Int)
    (h1 : ((ds.length + 1 : Nat) : Int) + k ≤ -6 ∨ 21 < ((ds.length + 1 : Nat) : Int) + k) (h2 : -324 ≤ k) :
    (prettify (.of (d :: ds) old) (ds.length + 1) k places).1.text (prettify (.of (d :: ds) old) (ds.length + 1) k places).2 =
      d :: '.' :: (ds ++ 'e' :: ((if (ds.length : Int) + k < 0 then ['-'] else []) ++ expText (ds.length + k).natAbs)) ∧
    (prettify (.of (d :: ds) old) (ds.length + 1) k places).1.hi ≤ ds.length + 7 := by
  have hl : 0 < ds.length := List.length_pos_iff.2 hd
  simp only [prettify]
  have ek : ((ds.length + 1 : Nat) : Int) + k - 1 = ds.length + k := by omega
  rw [if_neg (by omega), if_neg (by omega), if_neg (by omega), if_neg (by simp only [places]; omega), if_neg (by omega), ek]
  constructor
  · rw [writeExponent_text, show ds.length + 1 + 2 = ds.length + 1 + 1 + 1 from rfl, text_set]
    have : ((((Buf.of (d :: ds) old).move 2 1 (ds.length + 1 - 1)).set 1 '.').text (ds.length + 1 + 1)) = d :: '.' :: ds := by
      refine text_eq _ _ _ (by simp) ?_
      intro i hi
      simp only [List.length_cons] at hi
      rw [set_at]
      match i, hi with
      | 0, _ => rfl
      | 1, _ => rfl
      | i + 2, hi =>
        simp only [List.getElem_cons_succ]
        rw [if_neg (by omega), move_at, if_pos (by omega), of_at _ _ _ (by simp; omega)]
        simp
    rw [this]; simp
  · have := writeExponent_hi (((Buf.of (d :: ds) old).move 2 1 (ds.length + 1 - 1)).set 1 '.' |>.set (ds.length + 1 + 1) 'e') (ds.length + 1 + 2) (ds.length + k)
    simp only [set_hi, move_hi] at this
    simp only [Buf.of, List.length_cons] at this ⊢
    omega

/-! ## Values -/

theorem value_append (a b : List Char) : Itoa.Spec.value (a ++ b) = Itoa.Spec.value a * 10 ^ b.length + Itoa.Spec.value b := by
  have : ∀ (l : List Char) (x : Nat), l.foldl (fun a c => a * 10 + (c.toNat - 48)) x = x * 10 ^ l.length + Itoa.Spec.value l := by
    intro l
    induction l with
    | nil => intro x; simp [Itoa.Spec.value]
    | cons c l ih =>
      intro x
      simp only [Itoa.Spec.value, List.foldl_cons, List.length_cons]
      rw [ih, ih (0 * 10 + (c.toNat - 48)), Nat.pow_succ, Nat.add_mul, Nat.zero_mul, Nat.zero_add]
      have : x * 10 * 10 ^ l.length = x * (10 ^ l.length * 10) := by rw [Nat.mul_assoc, Nat.mul_comm 10]
      omega
  rw [show Itoa.Spec.value (a ++ b) = b.foldl (fun a c => a * 10 + (c.toNat - 48)) (Itoa.Spec.value a) by
    simp [Itoa.Spec.value, List.foldl_append]]
  exact this b _

theorem value_zeros (n : Nat) : Itoa.Spec.value (List.replicate n '0') = 0 := by
  induction n with
  | zero => rfl
  | succ n ih =>
    rw [List.replicate_succ', value_append, ih]
    rfl

theorem expText_ok (n : Nat) (h : n < 1000) : Spec.Digits (expText n) ∧ Itoa.Spec.value (expText n) = n ∧ (expText n).length ≤ 3 := by
  have : ∀ n : Fin 1000, (expText n.1 != [] && (expText n.1).all (fun c => 48 ≤ c.toNat && c.toNat ≤ 57) &&
      Itoa.Spec.value (expText n.1) == n.1 && (expText n.1).length ≤ 3) = true := by decide +kernel
  have := this ⟨n, h⟩
  simp only [Bool.and_eq_true, bne_iff_ne, List.all_eq_true, decide_eq_true_eq, beq_iff_eq] at this
  exact ⟨⟨this.1.1.1, this.1.1.2⟩, this.1.2, this.2⟩

theorem exponent_ok (x : Int) (h : x.natAbs < 1000) : Spec.Exponent ('e' :: ((if x < 0 then ['-'] else []) ++ expText x.natAbs)) x := by
  obtain ⟨h1, h2, -⟩ := expText_ok _ h
  by_cases hx : x < 0
  · rw [if_pos hx]
    exact .inr (.inr ⟨expText x.natAbs, rfl, h1, by rw [h2]; omega⟩)
  · rw [if_neg hx]
    exact .inr (.inl ⟨expText x.natAbs, rfl, h1, by rw [h2]; omega⟩)

theorem ten_ne : (10 : Rat) ≠ 0 := by decide

/-- Digits that Grisu2 may give: one to seventeen, the first of them not zero. -/
def Found (ds : Str) : Prop := ds.length ≤ 17 ∧ Spec.Digits ds ∧ ds.head? ≠ some '0'

theorem pretty_ok (neg : Bool) (ds : Str) (old : Nat → Char) (k : Int) (hd : Found ds) (h1 : -324 ≤ k) (h2 : (ds.length : Int) + k ≤ 1000) :
    ∃ t n, prettify (.of ds old) ds.length k places = (t, n) ∧ t.hi ≤ 24 ∧ n ≤ 24 ∧
      Spec.Denotes ((if neg then ['-'] else []) ++ t.text n) ((if neg then -1 else 1) * ((Itoa.Spec.value ds : Nat) : Rat) * 10 ^ k) := by
  obtain ⟨hl, ⟨hne, hds⟩, hh⟩ := hd
  have hpos : 0 < ds.length := List.length_pos_iff.2 hne
  have key : ∀ (l i f d e : List Char) (x : Int) (r : Buf × Nat), r.1.text r.2 = l → r.1.hi ≤ 24 → l.length ≤ 24 → l = i ++ (f ++ e) →
      Itoa.Spec.Numeral i → Spec.Fraction f d → Spec.Exponent e x → (f ≠ [] ∨ e ≠ []) →
      ((Itoa.Spec.value ds : Nat) : Rat) * 10 ^ k = ((Itoa.Spec.value (i ++ d) : Nat) : Rat) * 10 ^ (x - d.length) →
      ∃ t n, r = (t, n) ∧ t.hi ≤ 24 ∧ n ≤ 24 ∧
        Spec.Denotes ((if neg then ['-'] else []) ++ t.text n) ((if neg then -1 else 1) * ((Itoa.Spec.value ds : Nat) : Rat) * 10 ^ k) := by
    intro l i f d e x r ht hhi hln hle hi hf he hm hv
    have hn : r.2 = l.length := by rw [← ht]; simp [Buf.text]
    exact ⟨r.1, r.2, rfl, hhi, by omega, neg, i, f, d, e, x, by rw [ht, hle], hi, hf, he, hm, by rw [Rat.mul_assoc, hv, Rat.mul_assoc]⟩
  by_cases a : 0 ≤ k ∧ (ds.length : Int) + k ≤ 21
  · obtain ⟨p, q⟩ := pretty_whole ds old k a.1 a.2
    refine key _ (ds ++ List.replicate k.toNat '0') ['.', '0'] ['0'] [] 0 _ p (by omega) (by simp; omega) (by simp) ⟨by simp [hne], ?_, ?_⟩
      (.inr ⟨rfl, by simp, by simp⟩) (.inl ⟨rfl, rfl⟩) (.inl (by simp)) ?_
    · intro c hc
      rcases List.mem_append.1 hc with hc | hc
      · exact hds c hc
      · rw [(List.mem_replicate.1 hc).2]; decide
    · intro hz
      cases ds with
      | nil => exact absurd rfl hne
      | cons c l => exact absurd (by simpa using hz) hh
    · rw [value_append, value_append, value_zeros]
      obtain ⟨m, rfl⟩ : ∃ m : Nat, k = m := ⟨k.toNat, by omega⟩
      have : Itoa.Spec.value ['0'] = 0 := rfl
      simp only [this, List.length_replicate, Int.toNat_natCast, Nat.add_zero, List.length_singleton, Nat.pow_one]
      rw [Rat.zpow_natCast, show ((0 : Int) - ((1 : Nat) : Int)) = -((1 : Nat) : Int) by omega, Rat.zpow_neg, Rat.zpow_natCast]
      have e : (((Itoa.Spec.value ds * 10 ^ m * 10 : Nat)) : Rat) = ((Itoa.Spec.value ds : Nat) : Rat) * 10 ^ m * 10 := by
        rw [Rat.natCast_mul, Rat.natCast_mul, Rat.natCast_pow]; rfl
      rw [e, Rat.pow_one, Rat.mul_assoc _ 10, Rat.mul_inv_cancel _ ten_ne, Rat.mul_one]
  by_cases b : 0 < (ds.length : Int) + k ∧ (ds.length : Int) + k ≤ 21
  · obtain ⟨p, q⟩ := pretty_inner ds old k (by omega) b.1 b.2 h1
    refine key _ (ds.take (ds.length + k).toNat) ('.' :: ds.drop (ds.length + k).toNat) (ds.drop (ds.length + k).toNat) [] 0 _ p
      (by omega) (by rw [List.length_append, List.length_cons, List.length_take, List.length_drop]; omega) (by simp) ⟨?_, ?_, ?_⟩ (.inr ⟨rfl, ?_, ?_⟩) (.inl ⟨rfl, rfl⟩) (.inl (by simp)) ?_
    · intro h; have := congrArg List.length h; simp only [List.length_take, List.length_nil] at this; omega
    · intro c hc; exact hds c (List.mem_of_mem_take hc)
    · intro hz
      cases ds with
      | nil => exact absurd rfl hne
      | cons c l =>
        obtain ⟨m, hm⟩ : ∃ m, (((c :: l).length : Int) + k).toNat = m + 1 := ⟨(((c :: l).length : Int) + k).toNat - 1, by omega⟩
        rw [hm] at hz
        exact absurd (by simpa using hz) hh
    · intro h; have := congrArg List.length h; simp only [List.length_drop, List.length_nil] at this; omega
    · intro c hc; exact hds c (List.mem_of_mem_drop hc)
    · rw [List.take_append_drop]
      congr 2
      simp only [List.length_drop]; omega
  by_cases c : -6 < (ds.length : Int) + k ∧ (ds.length : Int) + k ≤ 0
  · obtain ⟨p, q⟩ := pretty_small ds old k c.1 c.2 hl hne
    refine key _ ['0'] ('.' :: (List.replicate (-(ds.length + k)).toNat '0' ++ ds)) (List.replicate (-(ds.length + k)).toNat '0' ++ ds) [] 0 _ p
      (by omega) (by simp; omega) (by simp) ⟨by simp, by simp, by simp⟩ (.inr ⟨rfl, by simp [hne], ?_⟩) (.inl ⟨rfl, rfl⟩) (.inl (by simp)) ?_
    · intro c hc
      rcases List.mem_append.1 hc with hc | hc
      · rw [(List.mem_replicate.1 hc).2]; decide
      · exact hds c hc
    · rw [value_append, value_append, value_zeros]
      have : Itoa.Spec.value ['0'] = 0 := rfl
      simp only [this, Nat.zero_mul, Nat.zero_add]
      congr 2
      simp only [List.length_append, List.length_replicate]; omega
  have sm : ∀ c ∈ ds, Itoa.Spec.Numeral [c] ∨ c = '0' := by
    intro c hc
    by_cases h : c = '0'
    · exact .inr h
    · exact .inl ⟨by simp, by simpa using hds c hc, by simp [h]⟩
  match ds, hh, sm with
  | [], _, _ => exact absurd rfl hne
  | [d], hh, sm =>
    simp only [List.length_singleton] at *
    obtain ⟨p, q⟩ := pretty_one d old k (by omega) h1
    have hx := exponent_ok k (by omega)
    have hn := (expText_ok k.natAbs (by omega)).2.2
    refine key _ [d] [] [] _ k _ p (by omega) (by split <;> simp <;> omega) rfl ((sm d (by simp)).resolve_right ?_)
      (.inl ⟨rfl, rfl⟩) hx (.inr (by simp)) (by simp)
    intro h; exact hh (by simp [h])
  | d :: e :: ds, hh, sm =>
    obtain ⟨p, q⟩ := pretty_sci d (e :: ds) (by simp) old k (by simp only [List.length_cons] at *; omega) h1
    simp only [List.length_cons] at *
    have hx := exponent_ok (((ds.length + 1 : Nat) : Int) + k) (by omega)
    have hn := (expText_ok (((ds.length + 1 : Nat) : Int) + k).natAbs (by omega)).2.2
    refine key _ [d] ('.' :: e :: ds) (e :: ds) _ (((ds.length + 1 : Nat) : Int) + k) _ p (by omega)
      (by split <;> simp only [List.length_cons, List.length_append, List.length_nil] <;> omega) (by simp)
      ((sm d (by simp)).resolve_right ?_) (.inr ⟨rfl, by simp, fun c hc => hds c (List.mem_cons_of_mem _ hc)⟩) hx (.inr (by simp)) ?_
    · intro h; exact hh (by simp [h])
    · have : ((ds.length + 1 : Nat) : Int) + k - ((e :: ds).length : Int) = k := by simp only [List.length_cons]; omega
      rw [this]; rfl

/-- C147: the text of a number that is not zero is a JSON number and denotes exactly the decimal number whose digits and
power of ten were found, whatever the buffer held before; it needs at most the 25 characters that the writer reserves. -/
theorem C147_number (neg : Bool) (ds : Str) (k : Int) (old : Nat → Char) (hd : Found ds) (h1 : -324 ≤ k) (h2 : (ds.length : Int) + k ≤ 1000) :
    Spec.Denotes (dtoa neg (some (ds, k)) old).1 ((if neg then -1 else 1) * ((Itoa.Spec.value ds : Nat) : Rat) * 10 ^ k) ∧
      (dtoa neg (some (ds, k)) old).1.length ≤ 25 ∧ (dtoa neg (some (ds, k)) old).2 ≤ 25 := by
  obtain ⟨t, n, e, a, b, c⟩ := pretty_ok neg ds old k hd h1 h2
  simp only [dtoa, e]
  cases neg
  · exact ⟨by simpa using c, by simp [Buf.text]; omega, by simp; omega⟩
  · exact ⟨by simpa using c, by simp [Buf.text]; omega, by simp; omega⟩

/-- C147: the text of zero. -/
theorem C147_zero (neg : Bool) (old : Nat → Char) :
    Spec.Denotes (dtoa neg none old).1 0 ∧ (dtoa neg none old).1.head? = some (if neg then '-' else '0') ∧ (dtoa neg none old).2 ≤ 25 := by
  cases neg
  · exact ⟨⟨false, ['0'], ".0".toList, ['0'], [], 0, rfl, by unfold Itoa.Spec.Numeral; decide, .inr ⟨by decide, by simp, by simp⟩,
      .inl ⟨rfl, rfl⟩, .inl (by decide), by decide +kernel⟩, rfl, by simp [dtoa]⟩
  · exact ⟨⟨true, ['0'], ".0".toList, ['0'], [], 0, rfl, by unfold Itoa.Spec.Numeral; decide, .inr ⟨by decide, by simp, by simp⟩,
      .inl ⟨rfl, rfl⟩, .inl (by decide), by decide +kernel⟩, rfl, by simp [dtoa]⟩

theorem denotes_no_nul (s : List Char) (q : Rat) (h : Spec.Denotes s q) : '\x00' ∉ s := by
  obtain ⟨neg, i, f, d, e, x, rfl, ⟨-, hi, -⟩, hf, he, -⟩ := h
  have hz : ¬ 48 ≤ ('\x00').toNat := by decide
  have dig : ∀ u : List Char, (∀ c ∈ u, 48 ≤ c.toNat ∧ c.toNat ≤ 57) → '\x00' ∉ u := fun u hu hc => hz (hu _ hc).1
  intro hc
  rcases List.mem_append.1 hc with hc | hc
  · cases neg <;> simp at hc
  rcases List.mem_append.1 hc with hc | hc
  · exact dig i hi hc
  rcases List.mem_append.1 hc with hc | hc
  · rcases hf with ⟨rfl, -⟩ | ⟨rfl, hd⟩
    · simp at hc
    · exact dig d hd.2 ((List.mem_cons.1 hc).resolve_left (by decide))
  · rcases he with ⟨rfl, -⟩ | ⟨u, rfl, hd, -⟩ | ⟨u, rfl, hd, -⟩
    · simp at hc
    · exact dig u hd.2 ((List.mem_cons.1 hc).resolve_left (by decide))
    · exact dig u hd.2 ((List.mem_cons.1 ((List.mem_cons.1 hc).resolve_left (by decide))).resolve_left (by decide))

/-- C147: texts made in this way are as C146 assumes them to be: no longer than the writer reserves, and without NUL. -/
theorem C147_reserved (D : Nat → Option Str)
    (h : ∀ n l, D n = some l → ∃ neg old, l = (dtoa neg none old).1 ∨
      ∃ ds k, Found ds ∧ -324 ≤ k ∧ (ds.length : Int) + k ≤ 1000 ∧ l = (dtoa neg (some (ds, k)) old).1) : JsonBuffer.Dtoa D := by
  intro n l hl
  obtain ⟨neg, old, rfl | ⟨ds, k, hd, h1, h2, rfl⟩⟩ := h n l hl
  · exact ⟨by cases neg <;> simp [dtoa], denotes_no_nul _ _ (C147_zero neg old).1⟩
  · obtain ⟨a, b, -⟩ := C147_number neg ds k old hd h1 h2
    exact ⟨b, denotes_no_nul _ _ a⟩

/-- C147, the loops that leave out zeros (dtoa.h:168-171 and 187-190; with the default number of places `dtoa` never
reaches them): the text ends no earlier than behind one decimal, only zeros are left out, and no zero is left at its end
unless it is that first decimal. -/
theorem C147_cut (b : Buf) (stop i : Nat) :
    stop + 1 ≤ lastDigit b stop i ∧ lastDigit b stop i ≤ max (stop + 1) (i + 1) ∧
      (∀ j, lastDigit b stop i ≤ j → j ≤ i → b.at' j = '0') ∧
      (lastDigit b stop i = stop + 1 ∨ b.at' (lastDigit b stop i - 1) ≠ '0') := by
  induction i with
  | zero => unfold lastDigit; exact ⟨by omega, by omega, fun j h1 h2 => by omega, .inl rfl⟩
  | succ i ih =>
    unfold lastDigit
    split
    · split
      · rename_i h
        exact ⟨by omega, by omega, fun j h1 h2 => by omega, .inr h⟩
      · rename_i h
        obtain ⟨h1, h2, h3, h4⟩ := ih
        refine ⟨h1, by omega, fun j a c => ?_, h4⟩
        by_cases e : j = i + 1
        · subst e; exact Classical.not_not.mp h
        · exact h3 j a (by omega)
    · exact ⟨by omega, by omega, fun j h1 h2 => by omega, .inl rfl⟩

example : lastDigit (.of "1.23400".toList (fun _ => 'x')) 2 6 = 5 := by decide +kernel
example : lastDigit (.of "1.00000".toList (fun _ => 'x')) 2 6 = 3 := by decide +kernel

/-- The hypotheses hold of digits in each of the shapes, with rubbish in the buffer. -/
example : Found "12345678901234567".toList := ⟨by decide, ⟨by decide, by decide +kernel⟩, by decide⟩
example : (dtoa true (some ("12345678901234567".toList, -22)) (fun _ => 'x')) = ("-0.0000012345678901234567".toList, 25) := by decide +kernel
example : (dtoa false (some ("1234".toList, 7)) (fun _ => 'x')).1 = "12340000000.0".toList := by decide +kernel
example : (dtoa false (some ("1234".toList, -2)) (fun _ => 'x')).1 = "12.34".toList := by decide +kernel
example : (dtoa true (some ("5".toList, -324)) (fun _ => 'x')).1 = "-5e-324".toList := by decide +kernel
example : (dtoa false (some ("17976931348623157".toList, 292)) (fun _ => 'x')).1 = "1.7976931348623157e308".toList := by decide +kernel

end Verif.Dtoa
