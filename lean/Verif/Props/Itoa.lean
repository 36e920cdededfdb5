import Verif.Model.Itoa
import Verif.Props.JsonGrammar
/-
C145: integers are printed exactly.
-/
namespace Verif.Itoa
open Verif.Receiver (digitChar dec)
open Verif.JsonText (fold)

namespace Spec

/-- The value of a text of decimal digits. -/
def value (s : List Char) : Nat := s.foldl (fun a c => a * 10 + (c.toNat - 48)) 0

/-- A decimal numeral: digits, not starting with a zero unless it is the only one. -/
def Numeral (s : List Char) : Prop :=
  s ≠ [] ∧ (∀ c ∈ s, 48 ≤ c.toNat ∧ c.toNat ≤ 57) ∧ (s.head? = some '0' → s = ['0'])

/-- The text denotes the natural number. -/
def Denotes (s : List Char) (n : Nat) : Prop := Numeral s ∧ value s = n

/-- The text denotes the integer: a minus in front of a numeral other than zero, or a numeral. -/
def DenotesInt (s : List Char) (i : Int) : Prop :=
  if i < 0 then ∃ r, s = '-' :: r ∧ Denotes r i.natAbs else Denotes s i.natAbs

end Spec

/-! ## The table -/

/-- The digit at a position of the table. -/
def lutd (i : Nat) : Nat := if i % 2 = 0 then i / 2 / 10 else i / 2 % 10

theorem lut_get (i : Nat) (h : i < 200) : lut[i]? = some (digitChar (lutd i)) := by
  have : ∀ i : Fin 200, lut[i.1]? = some (digitChar (lutd i.1)) := by decide +kernel
  exact this ⟨i, h⟩

theorem lutd_even (k : Nat) (h : k < 100) : lutd (shl k) = k / 10 ∧ shl k < 200 := by
  have e : shl k = k * 2 := by simp only [shl]; omega
  rw [e, lutd, if_pos (by omega)]; omega

theorem lutd_odd (k : Nat) (h : k < 100) : lutd (shl k + 1) = k % 10 ∧ shl k + 1 < 200 := by
  have e : shl k = k * 2 := by simp only [shl]; omega
  rw [e, lutd, if_neg (by omega)]; omega

theorem emit_some (l : List (Bool × Nat)) (h : ∀ p ∈ l, p.2 < 200) :
    emit l = some (((l.filter (·.1)).map fun p => lutd p.2).map digitChar) := by
  induction l with
  | nil => rfl
  | cons p l ih =>
    obtain ⟨c, i⟩ := p
    have hi := h (c, i) (by simp)
    have ih := ih (fun q hq => h q (by simp [hq]))
    cases c
    · simp [emit, ih]
    · simp [emit, ih, lut_get i hi]

/-- The four digits of a number below 10000. -/
def digits4 (v : Nat) : List Nat := [v / 100 / 10, v / 100 % 10, v % 100 / 10, v % 100 % 10]

theorem four_lt (v : Nat) (h : v < 10000) : ∀ i ∈ four v, i < 200 := by
  have a := lutd_even (v / 100) (by omega)
  have b := lutd_odd (v / 100) (by omega)
  have c := lutd_even (v % 100) (by omega)
  have d := lutd_odd (v % 100) (by omega)
  intro i hi
  simp only [four, List.mem_cons, List.not_mem_nil, or_false] at hi
  rcases hi with rfl | rfl | rfl | rfl
  · exact a.2
  · exact b.2
  · exact c.2
  · exact d.2

theorem four_digits (v : Nat) (h : v < 10000) : (four v).map lutd = digits4 v := by
  simp [four, digits4, (lutd_even (v / 100) (by omega)).1, (lutd_odd (v / 100) (by omega)).1,
    (lutd_even (v % 100) (by omega)).1, (lutd_odd (v % 100) (by omega)).1]

theorem digits4_lt (v : Nat) (h : v < 10000) : ∀ d ∈ digits4 v, d < 10 := by
  intro d hd
  simp only [digits4, List.mem_cons, List.not_mem_nil, or_false] at hd
  rcases hd with rfl | rfl | rfl | rfl <;> omega

theorem digits4_fold (a v : Nat) (_ : v < 10000) : fold a (digits4 v) = a * 10000 + v := by
  simp only [fold, digits4, List.foldl]; omega

theorem fold_append (a : Nat) (l m : List Nat) : fold a (l ++ m) = fold (fold a l) m := by
  simp [fold, List.foldl_append]

theorem fold_cons (a : Nat) (d : Nat) (l : List Nat) : fold a (d :: l) = fold (a * 10 + d) l := rfl

theorem fold_split (a : Nat) (l : List Nat) : fold a l = a * 10 ^ l.length + fold 0 l := by
  induction l generalizing a with
  | nil => simp [fold]
  | cons d l ih =>
    rw [fold_cons, fold_cons, ih, ih (0 * 10 + d), List.length_cons, Nat.pow_succ]
    have : (a * 10 + d) * 10 ^ l.length = a * (10 ^ l.length * 10) + d * 10 ^ l.length := by
      rw [Nat.add_mul, Nat.mul_assoc, Nat.mul_comm 10]
    rw [this]; simp only [Nat.zero_mul, Nat.zero_add]; omega

theorem fold_lt (l : List Nat) (h : ∀ d ∈ l, d < 10) : fold 0 l < 10 ^ l.length := by
  induction l with
  | nil => simp [fold]
  | cons d l ih =>
    have hd := h d (by simp)
    have ih := ih (fun x hx => h x (by simp [hx]))
    rw [fold_cons, fold_split, List.length_cons, Nat.pow_succ]
    have : (0 * 10 + d) * 10 ^ l.length ≤ 9 * 10 ^ l.length := Nat.mul_le_mul_right _ (by omega)
    omega

/-! ## Leaving out leading zeros -/

/-- Every digit with the condition that the number is large enough to have it; the last digit is always there. -/
def mark (v : Nat) : List Nat → List (Bool × Nat)
  | [] => []
  | [d] => [(true, d)]
  | d :: e :: l => (decide (v ≥ 10 ^ (l.length + 1)), d) :: mark v (e :: l)

def kept (v : Nat) (l : List Nat) : List Nat := ((mark v l).filter (·.1)).map (·.2)

theorem kept_all (v : Nat) (d : Nat) (l : List Nat) (h : 10 ^ l.length ≤ v) : kept v (d :: l) = d :: l := by
  induction l generalizing d with
  | nil => rfl
  | cons e l ih =>
    have h' : v ≥ 10 ^ (l.length + 1) := h
    have : 10 ^ l.length ≤ v := Nat.le_trans (Nat.pow_le_pow_right (by omega) (by omega)) h'
    have := ih e this
    simp only [kept, mark, decide_eq_true h', List.filter_cons_of_pos, List.map_cons] at this ⊢
    rw [this]

/-- The digits that are left: a numeral of the same number. -/
theorem kept_spec (l : List Nat) (h : ∀ d ∈ l, d < 10) (hn : l ≠ []) :
    ∃ d m, kept (fold 0 l) l = d :: m ∧ (∀ x ∈ d :: m, x < 10) ∧ fold d m = fold 0 l ∧ (0 < d ∨ m = []) ∧ (d :: m).length ≤ l.length := by
  induction l with
  | nil => exact absurd rfl hn
  | cons d l ih =>
    cases l with
    | nil => exact ⟨d, [], rfl, h, by simp [fold], Or.inr rfl, Nat.le_refl _⟩
    | cons e l =>
      have hl : ∀ x ∈ e :: l, x < 10 := fun x hx => h x (by simp [hx])
      have hlt := fold_lt (e :: l) hl
      have hs : fold 0 (d :: e :: l) = d * 10 ^ (e :: l).length + fold 0 (e :: l) := by
        rw [fold_cons, fold_split]; simp
      by_cases hd : d = 0
      · have hv : fold 0 (d :: e :: l) = fold 0 (e :: l) := by rw [hs, hd]; simp
        obtain ⟨a, m, h1, h2, h3, h4, h5⟩ := ih hl (by simp)
        refine ⟨a, m, ?_, h2, by rw [hv]; exact h3, h4, by simp only [List.length_cons] at h5 ⊢; omega⟩
        have hc : ¬ fold 0 (e :: l) ≥ 10 ^ (l.length + 1) := by simp only [List.length_cons] at hlt; omega
        rw [hv, ← h1]
        simp only [kept, mark, decide_eq_false hc]
        rw [List.filter_cons_of_neg (by simp)]
      · refine ⟨d, e :: l, ?_, h, ?_, Or.inl (by omega), Nat.le_refl _⟩
        · refine kept_all _ _ _ ?_
          rw [hs]
          have : 1 * 10 ^ (e :: l).length ≤ d * 10 ^ (e :: l).length := Nat.mul_le_mul_right _ (by omega)
          omega
        · show _ = fold (0 * 10 + d) (e :: l); rw [Nat.zero_mul, Nat.zero_add]

/-! ## Numerals -/

theorem digitChar_nat (d : Nat) (h : d < 10) : (digitChar d).toNat = 48 + d := by
  have : ∀ d : Fin 10, (digitChar d.1).toNat = 48 + d.1 := by decide
  exact this ⟨d, h⟩

theorem value_text (l : List Nat) (h : ∀ d ∈ l, d < 10) (a : Nat) :
    (l.map digitChar).foldl (fun a c => a * 10 + (c.toNat - 48)) a = fold a l := by
  induction l generalizing a with
  | nil => rfl
  | cons d l ih =>
    have := digitChar_nat d (h d (by simp))
    simp only [List.map_cons, List.foldl_cons, fold_cons, this]
    rw [ih (fun x hx => h x (by simp [hx]))]
    congr 1; omega

/-- Digits without a leading zero denote their value, and are the text that JsonText writes. -/
theorem text_denotes (d : Nat) (m : List Nat) (h : ∀ x ∈ d :: m, x < 10) (hz : 0 < d ∨ m = []) :
    Spec.Denotes ((d :: m).map digitChar) (fold d m) ∧ dec (fold d m) = (d :: m).map digitChar := by
  refine ⟨⟨⟨by simp, ?_, ?_⟩, ?_⟩, ?_⟩
  · intro c hc
    obtain ⟨x, hx, rfl⟩ := List.mem_map.1 hc
    have := digitChar_nat x (h x hx)
    have := h x hx
    omega
  · intro he
    simp only [List.map_cons, List.head?_cons, Option.some.injEq] at he
    have := digitChar_nat d (h d (by simp))
    rw [he] at this
    have h0 : d = 0 := by simp at this; omega
    rcases hz with hz | hz
    · omega
    · rw [hz, h0]; rfl
  · have := value_text (d :: m) h 0
    rw [fold_cons] at this
    simp only [Spec.value, this]; simp
  · rcases hz with hz | hz
    · exact JsonText.dec_fold d hz (h d (by simp)) m (fun x hx => h x (by simp [hx]))
    · subst hz
      have hd : d < 10 := h d (by simp)
      have : ∀ d : Fin 10, dec d.1 = [digitChar d.1] := by decide
      simpa [fold] using this ⟨d, hd⟩

/-- What is to be shown of a function that prints natural numbers. -/
def Prints (o : Option Str) (n room : Nat) : Prop := ∃ s, o = some s ∧ Spec.Denotes s n ∧ s = dec n ∧ s.length ≤ room

theorem prints_digits (d : Nat) (m : List Nat) (n room : Nat) (h : ∀ x ∈ d :: m, x < 10) (hz : 0 < d ∨ m = []) (hv : fold d m = n)
    (hr : (d :: m).length ≤ room) : Prints (some ((d :: m).map digitChar)) n room := by
  obtain ⟨h1, h2⟩ := text_denotes d m h hz
  rw [hv] at h1 h2
  exact ⟨_, rfl, h1, h2.symm, by simpa using hr⟩

theorem prints_mark (L : List (Bool × Nat)) (l : List Nat) (n room : Nat) (hL : ∀ p ∈ L, p.2 < 200)
    (hm : L.map (fun p => (p.1, lutd p.2)) = mark n l) (h : ∀ d ∈ l, d < 10) (hn : l ≠ []) (hv : fold 0 l = n) (hr : l.length ≤ room) :
    Prints (emit L) n room := by
  obtain ⟨d, m, h1, h2, h3, h4, h5⟩ := kept_spec l h hn
  have e : (L.filter (·.1)).map (fun p => lutd p.2) = kept n l := by
    rw [kept, ← hm]
    clear hm hL
    induction L with
    | nil => rfl
    | cons p L ih => obtain ⟨c, i⟩ := p; cases c <;> simp [ih]
  rw [emit_some L hL, e, ← hv, h1, hv]
  exact prints_digits d m n room h2 h4 (by rw [h3, hv]) (by omega)

theorem zip_lt (cs : List Bool) (l : List Nat) (h : ∀ i ∈ l, i < 200) : ∀ p ∈ cs.zip l, p.2 < 200 :=
  fun p hp => h p.2 (List.of_mem_zip (a := p.1) (b := p.2) hp).2

theorem always_lt (l : List Nat) (h : ∀ i ∈ l, i < 200) : ∀ p ∈ always l, p.2 < 200 := by
  intro p hp
  obtain ⟨i, hi, rfl⟩ := List.mem_map.1 hp
  exact h i hi

theorem append_lt {α : Type} {P : α → Prop} {l m : List α} (h : ∀ x ∈ l, P x) (k : ∀ x ∈ m, P x) : ∀ x ∈ l ++ m, P x := by
  intro x hx
  rcases List.mem_append.1 hx with e | e
  · exact h x e
  · exact k x e

theorem emit_always (l : List Nat) (h : ∀ i ∈ l, i < 200) : emit (always l) = some ((l.map lutd).map digitChar) := by
  rw [emit_some _ (always_lt l h)]
  congr 2
  simp only [always]
  clear h
  induction l with
  | nil => rfl
  | cons i l ih => simp at ih ⊢; exact ih

/-- One to four digits. -/
theorem prints4 (v : Nat) (h : v < 10000) (room : Nat) (hr : 4 ≤ room) :
    Prints (emit ([decide (v ≥ 1000), decide (v ≥ 100), decide (v ≥ 10), true].zip (four v))) v room := by
  refine prints_mark _ (digits4 v) v room (zip_lt _ _ (four_lt v h)) ?_ (digits4_lt v h) (by simp [digits4]) ?_ (by simpa [digits4] using hr)
  · have e := four_digits v h
    simp only [four, digits4, List.map_cons, List.map_nil, List.cons.injEq] at e
    simp [four, digits4, mark, e]
  · rw [digits4_fold 0 v h]; omega

/-- Five to eight digits. -/
theorem prints8 (v : Nat) (h0 : 10000 ≤ v) (h : v < 100000000) (room : Nat) (hr : 8 ≤ room) :
    Prints (emit ([decide (v ≥ 10000000), decide (v ≥ 1000000), decide (v ≥ 100000), true].zip (four (v / 10000)) ++
      always (four (v % 10000)))) v room := by
  have hb : v / 10000 < 10000 := by omega
  have hc : v % 10000 < 10000 := by omega
  refine prints_mark _ (digits4 (v / 10000) ++ digits4 (v % 10000)) v room
    (append_lt (zip_lt _ _ (four_lt _ hb)) (always_lt _ (four_lt _ hc))) ?_
    (append_lt (digits4_lt _ hb) (digits4_lt _ hc)) (by simp [digits4]) ?_ (by simpa [digits4] using hr)
  · have e := four_digits _ hb
    have f := four_digits _ hc
    have g1 : 10000 ≤ v := h0
    have g2 : 1000 ≤ v := by omega
    have g3 : 100 ≤ v := by omega
    have g4 : 10 ≤ v := by omega
    clear hb hc
    generalize v / 10000 = b at *
    generalize v % 10000 = c at *
    simp only [four, digits4, List.map_cons, List.map_nil, List.cons.injEq] at e f
    simp [four, digits4, mark, always, e, f, g1, g2, g3, g4]
  · rw [fold_append, digits4_fold _ _ hb, digits4_fold _ _ hc]; omega

/-- A first part without a leading zero and then digits. -/
theorem prints_lead (o : Option Str) (a n room k : Nat) (l : List Nat) (ha : 0 < a) (ho : Prints o a k) (hl : ∀ i ∈ l, i < 200)
    (hd : ∀ d ∈ l.map lutd, d < 10) (hv : a * 10 ^ l.length + fold 0 (l.map lutd) = n) (hr : k + l.length ≤ room) :
    Prints (andThen o (emit (always l))) n room := by
  obtain ⟨s, rfl, _, hs, hk⟩ := ho
  rw [emit_always l hl]
  -- the digits of the first part
  have : ∃ d m, s = (d :: m).map digitChar ∧ (∀ x ∈ d :: m, x < 10) ∧ 0 < d ∧ fold d m = a := by
    obtain ⟨d, m, h1, h2⟩ := Receiver.digitsF_head (a + 1) a (by omega) ha
    refine ⟨d, m, ?_, ?_, ?_, ?_⟩
    · rw [hs, dec, h1]
    · rw [← h1]; exact Receiver.digitsF_lt (a + 1) a
    · omega
    · have hv := Receiver.digitsF_val (a + 1) a (by omega)
      rw [h1] at hv
      have : fold 0 (d :: m) = a := hv
      rw [fold_cons] at this; simpa using this
  obtain ⟨d, m, hs', h2, h3, h4⟩ := this
  have hlen : (d :: m).length ≤ k := by rw [hs'] at hk; simpa using hk
  have := prints_digits d (m ++ l.map lutd) n room ?_ (Or.inl h3) ?_ ?_
  · rw [hs']
    simpa [andThen] using this
  · intro x hx
    rcases List.mem_append.1 (show x ∈ (d :: m) ++ l.map lutd from hx) with e | e
    · exact h2 x e
    · exact hd x e
  · rw [fold_append, h4, fold_split, List.length_map]; exact hv
  · simp only [List.length_cons, List.length_append, List.length_map] at hlen ⊢; omega

theorem char0_digit (a : Nat) : char0 a = digitChar a := rfl

theorem two_prints (a : Nat) (h0 : 10 ≤ a) (h : a < 100) (room : Nat) (hr : 2 ≤ room) : Prints (emit (always [shl a, shl a + 1])) a room := by
  have e := lutd_even a h
  have o := lutd_odd a h
  rw [emit_always _ (by intro i hi; simp only [List.mem_cons, List.not_mem_nil, or_false] at hi; rcases hi with rfl | rfl <;> omega)]
  simp only [List.map_cons, List.map_nil, e.1, o.1]
  exact prints_digits (a / 10) [a % 10] a room (by intro x hx; simp at hx; omega) (Or.inl (by omega))
    (by simp only [fold, List.foldl]; omega) hr

theorem one_prints (a : Nat) (h : a < 10) (room : Nat) (hr : 1 ≤ room) : Prints (some [char0 a]) a room :=
  prints_digits a [] a room (by intro x hx; simp at hx; omega) (Or.inr rfl) rfl hr

theorem lead32_prints (a : Nat) (h : a < 100) : Prints (lead32 a) a 2 := by
  simp only [lead32]
  split
  · next h0 => exact two_prints a h0 h 2 (by omega)
  · next h0 => exact one_prints a (by omega) 2 (by omega)

theorem lead64_prints (a : Nat) (h : a < 10000) : Prints (lead64 a) a 4 := by
  simp only [lead64]
  split
  · next h0 => exact one_prints a h0 4 (by omega)
  · split
    · next h1 => exact two_prints a (by omega) h1 4 (by omega)
    · have e := lutd_even (a % 100) (by omega)
      have o := lutd_odd (a % 100) (by omega)
      split
      · next h2 =>
        refine prints_lead (some [char0 (a / 100)]) (a / 100) a 4 1 _ (by omega) (one_prints (a / 100) (by omega) 1 (by omega)) ?_ ?_ ?_ (by simp)
        · intro i hi; simp only [List.mem_cons, List.not_mem_nil, or_false] at hi; rcases hi with rfl | rfl <;> omega
        · intro d hd; simp only [List.map_cons, List.map_nil, e.1, o.1, List.mem_cons, List.not_mem_nil, or_false] at hd; omega
        · simp only [List.map_cons, List.map_nil, e.1, o.1, fold, List.foldl, List.length]; omega
      · have e' := lutd_even (a / 100) (by omega)
        have o' := lutd_odd (a / 100) (by omega)
        rw [emit_always _ (by intro i hi; simp only [List.mem_cons, List.not_mem_nil, or_false] at hi; rcases hi with rfl | rfl | rfl | rfl <;> omega)]
        simp only [List.map_cons, List.map_nil, e.1, o.1, e'.1, o'.1]
        exact prints_digits (a / 100 / 10) [a / 100 % 10, a % 100 / 10, a % 100 % 10] a 4 (by intro x hx; simp only [List.mem_cons, List.not_mem_nil, or_false] at hx; omega)
          (Or.inl (by omega)) (by simp only [fold, List.foldl]; omega) (by simp)

/-! ## The functions -/

theorem four_four_lt (a b : Nat) (ha : a < 10000) (hb : b < 10000) : ∀ i ∈ four a ++ four b, i < 200 :=
  append_lt (four_lt a ha) (four_lt b hb)

theorem C145_u32 (v : Nat) (h : v < 2 ^ 32) : Prints (u32toa v) v 10 := by
  simp only [u32toa]
  split
  · next h0 => exact prints4 v h0 10 (by omega)
  · split
    · next h0 h1 => exact prints8 v (by omega) h1 10 (by omega)
    · have hb : v % 100000000 / 10000 < 10000 := by omega
      have hc : v % 100000000 % 10000 < 10000 := by omega
      refine prints_lead _ (v / 100000000) v 10 2 _ (by omega) (lead32_prints _ (by omega)) (four_four_lt _ _ hb hc) ?_ ?_ (by simp [four])
      · rw [List.map_append, four_digits _ hb, four_digits _ hc]
        exact append_lt (digits4_lt _ hb) (digits4_lt _ hc)
      · rw [List.map_append, four_digits _ hb, four_digits _ hc, fold_append, digits4_fold _ _ hb, digits4_fold _ _ hc]
        simp only [four, List.length_append, List.length_cons, List.length_nil]
        omega

theorem C145_u64 (v : Nat) (h : v < 2 ^ 64) : Prints (u64toa v) v 20 := by
  simp only [u64toa]
  split
  · next h0 =>
    have e : u32 v = v := by simp only [u32]; omega
    rw [e]
    split
    · next h1 => exact prints4 v h1 20 (by omega)
    · next h1 => exact prints8 v (by omega) h0 20 (by omega)
  · next h8 =>
    split
    · next h0 =>
      have e1 : u32 (v / 100000000) = v / 100000000 := by simp only [u32]; omega
      have e2 : u32 (v % 100000000) = v % 100000000 := by simp only [u32]; omega
      rw [e1, e2]
      have hb : v / 100000000 / 10000 < 10000 := by omega
      have hc : v / 100000000 % 10000 < 10000 := by omega
      have hd : v % 100000000 / 10000 < 10000 := by omega
      have he : v % 100000000 % 10000 < 10000 := by omega
      refine prints_mark _ (digits4 (v / 100000000 / 10000) ++ digits4 (v / 100000000 % 10000) ++
          (digits4 (v % 100000000 / 10000) ++ digits4 (v % 100000000 % 10000))) v 20
        (append_lt (append_lt (zip_lt _ _ (four_lt _ hb)) (zip_lt _ _ (four_lt _ hc))) (always_lt _ (four_four_lt _ _ hd he))) ?_
        (append_lt (append_lt (digits4_lt _ hb) (digits4_lt _ hc)) (append_lt (digits4_lt _ hd) (digits4_lt _ he))) (by simp [digits4]) ?_ (by simp [digits4])
      · have f1 := four_digits _ hb
        have f2 := four_digits _ hc
        have f3 := four_digits _ hd
        have f4 := four_digits _ he
        have g1 : 10000000 ≤ v := by omega
        have g2 : 1000000 ≤ v := by omega
        have g3 : 100000 ≤ v := by omega
        have g4 : 10000 ≤ v := by omega
        have g5 : 1000 ≤ v := by omega
        have g6 : 100 ≤ v := by omega
        have g7 : 10 ≤ v := by omega
        clear hb hc hd he
        generalize v / 100000000 / 10000 = a at *
        generalize v / 100000000 % 10000 = b at *
        generalize v % 100000000 / 10000 = c at *
        generalize v % 100000000 % 10000 = d at *
        simp only [four, digits4, List.map_cons, List.map_nil, List.cons.injEq] at f1 f2 f3 f4
        simp [four, digits4, mark, always, f1, f2, f3, f4, g1, g2, g3, g4, g5, g6, g7]
      · rw [fold_append, fold_append, fold_append, digits4_fold _ _ hb, digits4_fold _ _ hc, digits4_fold _ _ hd, digits4_fold _ _ he]
        omega
    · have e0 : u32 (v / 10000000000000000) = v / 10000000000000000 := by simp only [u32]; omega
      have e1 : u32 (v % 10000000000000000 / 100000000) = v % 10000000000000000 / 100000000 := by simp only [u32]; omega
      have e2 : u32 (v % 10000000000000000 % 100000000) = v % 10000000000000000 % 100000000 := by simp only [u32]; omega
      rw [e0, e1, e2]
      have hb : v % 10000000000000000 / 100000000 / 10000 < 10000 := by omega
      have hc : v % 10000000000000000 / 100000000 % 10000 < 10000 := by omega
      have hd : v % 10000000000000000 % 100000000 / 10000 < 10000 := by omega
      have he : v % 10000000000000000 % 100000000 % 10000 < 10000 := by omega
      refine prints_lead _ (v / 10000000000000000) v 20 4 _ (by omega) (lead64_prints _ (by omega))
        (append_lt (append_lt (four_four_lt _ _ hb hc) (four_lt _ hd)) (four_lt _ he)) ?_ ?_ (by simp [four])
      · simp only [List.map_append]
        rw [four_digits _ hb, four_digits _ hc, four_digits _ hd, four_digits _ he]
        exact append_lt (append_lt (append_lt (digits4_lt _ hb) (digits4_lt _ hc)) (digits4_lt _ hd)) (digits4_lt _ he)
      · simp only [List.map_append]
        rw [four_digits _ hb, four_digits _ hc, four_digits _ hd, four_digits _ he]
        rw [fold_append, fold_append, fold_append, digits4_fold _ _ hb, digits4_fold _ _ hc, digits4_fold _ _ hd, digits4_fold _ _ he]
        simp only [four, List.length_append, List.length_cons, List.length_nil]
        omega

theorem signed_prints (bits : Nat) (f : Nat → Option Str) (room : Nat) (v : Int) (hf : ∀ n, n < 2 ^ bits → Prints (f n) n room)
    (hb : 0 < bits) (h0 : -2 ^ (bits - 1) ≤ v) (h1 : v < 2 ^ (bits - 1)) :
    ∃ s, (if v < 0 then andThen (some ['-']) (f (negate bits (v % 2 ^ bits).toNat)) else f (v % 2 ^ bits).toNat) = some s ∧
      Spec.DenotesInt s v ∧ s = JsonText.decimal v ∧ s.length ≤ room + 1 := by
  obtain ⟨k, rfl⟩ : ∃ k, bits = k + 1 := ⟨bits - 1, by omega⟩
  have hp : (2 : Int) ^ (k + 1) = 2 * 2 ^ k := by rw [Int.pow_succ]; omega
  have hq : (2 : Nat) ^ (k + 1) = 2 * 2 ^ k := by rw [Nat.pow_succ]; omega
  have hc : ((2 ^ k : Nat) : Int) = (2 : Int) ^ k := by simp
  simp only [Nat.add_sub_cancel] at h0 h1
  generalize hP : (2 : Int) ^ k = P at *
  generalize hN : (2 : Nat) ^ k = N at *
  rw [hp]
  by_cases hv : v < 0
  · rw [if_pos hv]
    have e : v % (2 * P) = v + 2 * P := by
      rw [← Int.add_emod_right]
      exact Int.emod_eq_of_lt (by omega) (by omega)
    have en : negate (k + 1) (v % (2 * P)).toNat = v.natAbs := by
      rw [e, negate, hq]
      rw [Nat.mod_eq_of_lt (by omega)]
      omega
    rw [en]
    obtain ⟨s, h2, h3, h4, h5⟩ := hf v.natAbs (by omega)
    refine ⟨'-' :: s, by simp [andThen, h2], ?_, ?_, by simp; omega⟩
    · simp only [Spec.DenotesInt, if_pos hv]; exact ⟨s, rfl, h3⟩
    · simp only [JsonText.decimal, if_pos hv, ← h4]
  · rw [if_neg hv]
    have e : (v % (2 * P)).toNat = v.natAbs := by
      rw [Int.emod_eq_of_lt (by omega) (by omega)]; omega
    rw [e]
    obtain ⟨s, h2, h3, h4, h5⟩ := hf v.natAbs (by omega)
    refine ⟨s, h2, ?_, ?_, by omega⟩
    · simp only [Spec.DenotesInt, if_neg hv]; exact h3
    · simp only [JsonText.decimal, if_neg hv, ← h4]

/-- **C145** Every 32 and 64 bit integer, signed or not, is printed as its decimal numeral without leading zeros and with a
minus if it is negative; no access is outside the table, and 10, 11, 20 and 21 characters are enough. -/
theorem C145 :
    (∀ v < 2 ^ 32, ∃ s, u32toa v = some s ∧ Spec.Denotes s v ∧ s.length ≤ 10) ∧
    (∀ v : Int, -2 ^ 31 ≤ v → v < 2 ^ 31 → ∃ s, i32toa v = some s ∧ Spec.DenotesInt s v ∧ s.length ≤ 11) ∧
    (∀ v < 2 ^ 64, ∃ s, u64toa v = some s ∧ Spec.Denotes s v ∧ s.length ≤ 20) ∧
    (∀ v : Int, -2 ^ 63 ≤ v → v < 2 ^ 63 → ∃ s, i64toa v = some s ∧ Spec.DenotesInt s v ∧ s.length ≤ 21) := by
  refine ⟨?_, ?_, ?_, ?_⟩
  · intro v h
    obtain ⟨s, h1, h2, _, h4⟩ := C145_u32 v h
    exact ⟨s, h1, h2, h4⟩
  · intro v h0 h1
    obtain ⟨s, h1, h2, _, h4⟩ := signed_prints 32 u32toa 10 v C145_u32 (by omega) h0 h1
    exact ⟨s, h1, h2, h4⟩
  · intro v h
    obtain ⟨s, h1, h2, _, h4⟩ := C145_u64 v h
    exact ⟨s, h1, h2, h4⟩
  · intro v h0 h1
    obtain ⟨s, h1, h2, _, h4⟩ := signed_prints 64 u64toa 20 v C145_u64 (by omega) h0 h1
    exact ⟨s, h1, h2, h4⟩

/-- Every number of characters between one and twenty, the ends of the ranges, and zeros inside. -/
example : [0, 7, 10, 99, 100, 1000, 10001, 123456, 1000000, 70000007, 100000000, 4294967295].map u32toa =
    ["0", "7", "10", "99", "100", "1000", "10001", "123456", "1000000", "70000007", "100000000", "4294967295"].map (some ·.toList) := by
  decide +kernel
example : [99999999, 100000000, 9007199254740993, 10000000000000000, 120000000000000005, 1000000000000000000, 18446744073709551615].map u64toa =
    ["99999999", "100000000", "9007199254740993", "10000000000000000", "120000000000000005", "1000000000000000000",
      "18446744073709551615"].map (some ·.toList) := by decide +kernel
example : i32toa (-2147483648) = some "-2147483648".toList ∧ i64toa (-9223372036854775808) = some "-9223372036854775808".toList ∧
    i64toa (-1) = some "-1".toList := by decide +kernel

/-- What the writer of Verif.JsonText puts for an integer is what these functions print. -/
theorem C145_decimal (v : Int) :
    (0 ≤ v → v < 2 ^ 32 → u32toa v.toNat = some (JsonText.decimal v)) ∧
    (-2 ^ 31 ≤ v → v < 2 ^ 31 → i32toa v = some (JsonText.decimal v)) ∧
    (0 ≤ v → v < 2 ^ 64 → u64toa v.toNat = some (JsonText.decimal v)) ∧
    (-2 ^ 63 ≤ v → v < 2 ^ 63 → i64toa v = some (JsonText.decimal v)) := by
  have pos : 0 ≤ v → dec v.toNat = JsonText.decimal v := by
    intro h
    simp only [JsonText.decimal, if_neg (show ¬ v < 0 by omega)]
    congr 1; omega
  refine ⟨?_, ?_, ?_, ?_⟩
  · intro h0 h1
    obtain ⟨s, h1, _, h3, _⟩ := C145_u32 v.toNat (by omega)
    rw [h1, h3, pos h0]
  · intro h0 h1
    obtain ⟨s, h1, _, h3, _⟩ := signed_prints 32 u32toa 10 v C145_u32 (by omega) h0 h1
    rw [← h3]; exact h1
  · intro h0 h1
    obtain ⟨s, h1, _, h3, _⟩ := C145_u64 v.toNat (by omega)
    rw [h1, h3, pos h0]
  · intro h0 h1
    obtain ⟨s, h1, _, h3, _⟩ := signed_prints 64 u64toa 20 v C145_u64 (by omega) h0 h1
    rw [← h3]; exact h1

/-- Different numbers have different texts: what is printed can be read back in one way only. -/
theorem Spec.unique (s : List Char) (i j : Int) (h : Spec.DenotesInt s i) (k : Spec.DenotesInt s j) : i = j := by
  have dash : ∀ r n, s = '-' :: r → ¬ Spec.Denotes s n := by
    intro r n e hd
    have := hd.1.2.1 '-' (by simp [e])
    simp at this
  simp only [Spec.DenotesInt] at h k
  split at h <;> split at k
  · obtain ⟨r, e, hr⟩ := h
    obtain ⟨r', e', hr'⟩ := k
    rw [e] at e'
    injection e' with _ e'
    subst e'
    have := hr.2.symm.trans hr'.2
    omega
  · obtain ⟨r, e, hr⟩ := h; exact absurd k (dash r _ e)
  · obtain ⟨r, e, hr⟩ := k; exact absurd h (dash r _ e)
  · have := h.2.symm.trans k.2
    omega

end Verif.Itoa
