import Verif.Model.JsonText
import Verif.Props.Ports

/-!
C116: the text written for a document reads back as that document.
C117: reading does not exhaust the stack.
-/
namespace Verif.JsonText
open Verif.Ipc (Str Json)
open Verif.Receiver (dec digitsF digitChar)

/-! ## The text of a document -/

mutual
/-- The JSON text of a document without white space. -/
def text (D : Nat → Option Str) : Json → Str
  | .null => "null".toList
  | .bool true => "true".toList
  | .bool false => "false".toList
  | .num i => decimal i
  | .dbl d => (D d).getD []
  | .str s => quoted s
  | .arr l => '[' :: (textL D true l ++ [']'])
  | .obj l => '{' :: (textM D true l ++ ['}'])
/-- Elements separated by commas. -/
def textL (D : Nat → Option Str) (first : Bool) : List Json → Str
  | [] => []
  | j :: l => (if first then [] else [',']) ++ (text D j ++ textL D false l)
/-- Members separated by commas. -/
def textM (D : Nat → Option Str) (first : Bool) : List (Str × Json) → Str
  | [] => []
  | (k, j) :: l => (if first then [] else [',']) ++ (quoted k ++ ':' :: (text D j ++ textM D false l))
end

mutual
/-- All numbers are integers of 64 bits, signed or unsigned. -/
def Fits : Json → Prop
  | .null => True
  | .bool _ => True
  | .num i => -(2 ^ 63 : Int) ≤ i ∧ i < (2 ^ 64 : Int)
  | .dbl _ => False
  | .str _ => True
  | .arr l => FitsL l
  | .obj l => FitsM l
def FitsL : List Json → Prop
  | [] => True
  | j :: l => Fits j ∧ FitsL l
def FitsM : List (Str × Json) → Prop
  | [] => True
  | (_, j) :: l => Fits j ∧ FitsM l
end

mutual
/-- Nesting of a document; 1 for a document without arrays and objects. -/
def depth : Json → Nat
  | .arr l => depthL l + 1
  | .obj l => depthM l + 1
  | .null => 1
  | .bool _ => 1
  | .num _ => 1
  | .dbl _ => 1
  | .str _ => 1
def depthL : List Json → Nat
  | [] => 0
  | j :: l => max (depth j) (depthL l)
def depthM : List (Str × Json) → Nat
  | [] => 0
  | (_, j) :: l => max (depth j) (depthM l)
end

/-! ## What the writer writes -/

theorem run_append (D : Nat → Option Str) (w : Wr) (a b : List Ev) : run D w (a ++ b) = run D (run D w a) b := by
  simp [run, List.foldl_append]

theorem run_cons (D : Nat → Option Str) (w : Wr) (e : Ev) (b : List Ev) : run D w (e :: b) = run D (step D w e) b := rfl

theorem step_ok (D : Nat → Option Str) (w : Wr) (e : Ev) (h : w.bad = false) :
    step D w e = (match e with
      | .null => (w.pre false).put "null".toList
      | .bool true => (w.pre false).put "true".toList
      | .bool false => (w.pre false).put "false".toList
      | .num i => (w.pre false).put (decimal i)
      | .dbl d => (w.pre false).put ((D d).getD [])
      | .str s => (w.pre true).put (quoted s)
      | .startObj => ((w.pre false).push false).put ['{']
      | .endObj => (w.pop false).put ['}']
      | .startArr => ((w.pre false).push true).put ['[']
      | .endArr => (w.pop true).put [']']) := by
  simp only [step, h, Bool.false_eq_true, if_false]
  rfl

def isStr : Json → Bool
  | .str _ => true
  | _ => false

theorem pre_arr (w : Wr) (n : Nat) (r : List (Nat × Bool)) (h : w.levels = (n, true) :: r) (b : Bool) :
    w.pre b = { w with out := w.out ++ sep n true, levels := (n + 1, true) :: r } := by
  simp [Wr.pre, h]

theorem pre_odd (w : Wr) (n : Nat) (r : List (Nat × Bool)) (h : w.levels = (2 * n + 1, false) :: r) (b : Bool) :
    w.pre b = { w with out := w.out ++ [':'], levels := (2 * n + 2, false) :: r } := by
  have : (2 * n + 1) % 2 = 1 := by omega
  simp [Wr.pre, h, this, sep]

theorem pre_even (w : Wr) (n : Nat) (r : List (Nat × Bool)) (h : w.levels = (2 * n, false) :: r) :
    w.pre true = { w with out := w.out ++ (if n = 0 then [] else [',']), levels := (2 * n + 1, false) :: r } := by
  have e : 2 * n = 0 ↔ n = 0 := by omega
  simp [Wr.pre, h, sep, e]

theorem sep_arr (n : Nat) : sep n true = if n = 0 then [] else [','] := by simp [sep]

mutual
theorem run_events (D : Nat → Option Str) (j : Json) (w : Wr) (h : w.bad = false) (hp : (w.pre (isStr j)).bad = false) :
    run D w (events j) = (w.pre (isStr j)).put (text D j) := by
  match j with
  | .null => show step D w .null = _; rw [step_ok D w _ h]; rfl
  | .bool true => show step D w (.bool true) = _; rw [step_ok D w _ h]; rfl
  | .bool false => show step D w (.bool false) = _; rw [step_ok D w _ h]; rfl
  | .num i => show step D w (.num i) = _; rw [step_ok D w _ h]; rfl
  | .dbl d => show step D w (.dbl d) = _; rw [step_ok D w _ h]; rfl
  | .str s => show step D w (.str s) = _; rw [step_ok D w _ h]; rfl
  | .arr l =>
    simp only [isStr] at hp ⊢
    simp only [events, run_cons, step_ok D w _ h, run_append]
    have e := run_eventsL D l (((w.pre false).push true).put ['[']) 0 (w.pre false).levels hp rfl
    rw [e]
    simp [run, step, hp, Wr.put, Wr.push, Wr.pop, text]
  | .obj l =>
    simp only [isStr] at hp ⊢
    simp only [events, run_cons, step_ok D w _ h, run_append]
    have e := run_eventsM D l (((w.pre false).push false).put ['{']) 0 (w.pre false).levels hp rfl
    rw [e]
    simp [run, step, hp, Wr.put, Wr.push, Wr.pop, text]
theorem run_eventsL (D : Nat → Option Str) (l : List Json) (w : Wr) (n : Nat) (r : List (Nat × Bool)) (h : w.bad = false)
    (hl : w.levels = (n, true) :: r) :
    run D w (eventsL l) = { w with out := w.out ++ textL D (decide (n = 0)) l, levels := (n + l.length, true) :: r } := by
  match l with
  | [] => simp [eventsL, run, textL, ← hl]
  | j :: l =>
    have hb : (w.pre (isStr j)).bad = false := by rw [pre_arr w n r hl]; exact h
    simp only [eventsL, run_append]
    rw [run_events D j w h hb, pre_arr w n r hl,
      run_eventsL D l (({ w with out := w.out ++ sep n true, levels := (n + 1, true) :: r } : Wr).put (text D j)) (n + 1) r h rfl]
    have e2 : n + 1 + l.length = n + (l.length + 1) := by omega
    by_cases h0 : n = 0
    · simp [Wr.put, textL, sep_arr, h0, Nat.add_comm]
    · simp [Wr.put, textL, sep_arr, h0, e2]
theorem run_eventsM (D : Nat → Option Str) (l : List (Str × Json)) (w : Wr) (n : Nat) (r : List (Nat × Bool))
    (h : w.bad = false) (hl : w.levels = (2 * n, false) :: r) :
    run D w (eventsM l) =
      { w with out := w.out ++ textM D (decide (n = 0)) l, levels := (2 * (n + l.length), false) :: r } := by
  match l with
  | [] => simp [eventsM, run, textM, ← hl]
  | (k, j) :: l =>
    simp only [eventsM, run_cons, run_append, step_ok D w _ h]
    rw [pre_even w n r hl]
    generalize hw1 : ({ w with out := w.out ++ (if n = 0 then [] else [',']), levels := (2 * n + 1, false) :: r } : Wr).put (quoted k) = w1
    have hb1 : w1.bad = false := by rw [← hw1]; exact h
    have hl1 : w1.levels = (2 * n + 1, false) :: r := by rw [← hw1]; rfl
    have hb : (w1.pre (isStr j)).bad = false := by rw [pre_odd w1 n r hl1]; exact hb1
    rw [run_events D j w1 hb1 hb, pre_odd w1 n r hl1,
      run_eventsM D l (({ w1 with out := w1.out ++ [':'], levels := (2 * n + 2, false) :: r } : Wr).put (text D j)) (n + 1) r hb1 rfl,
      ← hw1]
    have e2 : n + 1 + l.length = n + (l.length + 1) := by omega
    by_cases h0 : n = 0
    · simp [Wr.put, textM, h0, Nat.add_comm]
    · simp [Wr.put, textM, h0, e2]
end

/-- The calls before a refused one are all calls if there is no number that is not an integer. -/
def noDbl : Ev → Prop
  | .dbl _ => False
  | _ => True

theorem upTo_all (D : Nat → Option Str) (l : List Ev) (h : ∀ e ∈ l, noDbl e) : upTo D l = l := by
  induction l with
  | nil => rfl
  | cons e l ih =>
    have hl := ih (fun x hx => h x (by simp [hx]))
    have he := h e (by simp)
    cases e <;> first | exact False.elim he | simp [upTo, hl]

mutual
theorem noDbl_events (j : Json) (h : Fits j) : ∀ e ∈ events j, noDbl e := by
  match j with
  | .null => simp [events, noDbl]
  | .bool _ => simp [events, noDbl]
  | .num _ => simp [events, noDbl]
  | .dbl _ => exact h.elim
  | .str _ => simp [events, noDbl]
  | .arr l =>
    have := noDbl_eventsL l h
    intro e he
    simp only [events, List.mem_cons, List.mem_append, List.not_mem_nil, or_false] at he
    rcases he with rfl | he | rfl
    · trivial
    · exact this e he
    · trivial
  | .obj l =>
    have := noDbl_eventsM l h
    intro e he
    simp only [events, List.mem_cons, List.mem_append, List.not_mem_nil, or_false] at he
    rcases he with rfl | he | rfl
    · trivial
    · exact this e he
    · trivial
theorem noDbl_eventsL (l : List Json) (h : FitsL l) : ∀ e ∈ eventsL l, noDbl e := by
  match l with
  | [] => simp [eventsL]
  | j :: l =>
    intro e he
    simp only [eventsL, List.mem_append] at he
    rcases he with he | he
    · exact noDbl_events j h.1 e he
    · exact noDbl_eventsL l h.2 e he
theorem noDbl_eventsM (l : List (Str × Json)) (h : FitsM l) : ∀ e ∈ eventsM l, noDbl e := by
  match l with
  | [] => simp [eventsM]
  | (k, j) :: l =>
    intro e he
    simp only [eventsM, List.mem_cons, List.mem_append] at he
    rcases he with rfl | he | he
    · trivial
    · exact noDbl_events j h.1 e he
    · exact noDbl_eventsM l h.2 e he
end

/-- The writer writes the text of the document, without failing an assertion. -/
theorem C116_text (D : Nat → Option Str) (j : Json) (h : Fits j) :
    write D j = text D j ∧ (run D {} (events j)).bad = false := by
  have e := run_events D j {} rfl (by cases j <;> rfl)
  unfold write
  rw [upTo_all D _ (noDbl_events j h), e]
  cases j <;> exact ⟨rfl, rfl⟩

/-! ## Reading strings -/

theorem front_front (a b : Str) (r : R Str) : (r.front a).front b = r.front (b ++ a) := by
  cases r <;> simp [R.front, R.bind]

theorem readStr_ctl : ∀ n : Fin 32, ∀ rest : Str,
    readStr .plain (escChar (Char.ofNat n.val) ++ rest) = (readStr .plain rest).front [Char.ofNat n.val] := by
  intro n rest
  have : n.val = 0 ∨ n.val = 1 ∨ n.val = 2 ∨ n.val = 3 ∨ n.val = 4 ∨ n.val = 5 ∨ n.val = 6 ∨ n.val = 7 ∨ n.val = 8 ∨
      n.val = 9 ∨ n.val = 10 ∨ n.val = 11 ∨ n.val = 12 ∨ n.val = 13 ∨ n.val = 14 ∨ n.val = 15 ∨ n.val = 16 ∨
      n.val = 17 ∨ n.val = 18 ∨ n.val = 19 ∨ n.val = 20 ∨ n.val = 21 ∨ n.val = 22 ∨ n.val = 23 ∨ n.val = 24 ∨
      n.val = 25 ∨ n.val = 26 ∨ n.val = 27 ∨ n.val = 28 ∨ n.val = 29 ∨ n.val = 30 ∨ n.val = 31 := by omega
  rcases this with h | h | h | h | h | h | h | h | h | h | h | h | h | h | h | h | h | h | h | h | h | h | h | h | h | h |
    h | h | h | h | h | h <;> rw [h] <;> rfl

theorem readStr_char (c : Char) (rest : Str) :
    readStr .plain (escChar c ++ rest) = (readStr .plain rest).front [c] := by
  by_cases h : c.toNat < 32
  · have := readStr_ctl ⟨c.toNat, h⟩ rest
    simpa using this
  · unfold escChar
    split
    · rfl
    · rfl
    · exact absurd (by decide) h
    · exact absurd (by decide) h
    · exact absurd (by decide) h
    · exact absurd (by decide) h
    · exact absurd (by decide) h
    · next h1 h2 _ _ _ _ _ =>
      rw [if_neg h]
      show readStr .plain (c :: rest) = _
      rw [readStr, if_neg h2, if_neg h1, if_neg h]

theorem readStr_flat (s rest : Str) : readStr .plain (s.flatMap escChar ++ '"' :: rest) = .ok s rest := by
  induction s with
  | nil => rfl
  | cons c s ih =>
    rw [List.flatMap_cons, List.append_assoc, readStr_char, ih]
    rfl

/-! ## Reading integers -/

def fold (a : Nat) (l : List Nat) : Nat := l.foldl (fun a d => a * 10 + d) a

theorem fold_ge (l : List Nat) (a : Nat) : a ≤ fold a l := by
  induction l generalizing a with
  | nil => exact Nat.le_refl a
  | cons d l ih => exact Nat.le_trans (by omega) (ih (a * 10 + d))

theorem digit_facts (d : Nat) (h : d < 10) : isDigit (digitChar d) = true ∧ (digitChar d).toNat - 48 = d := by
  have : ∀ d : Fin 10, isDigit (digitChar d.val) = true ∧ (digitChar d.val).toNat - 48 = d.val := by decide +kernel
  exact this ⟨d, h⟩

/-- Text that does not continue a number. -/
def Stops (s : Str) : Prop := ∀ c, s.head? = some c → isDigit c = false ∧ c ≠ '.' ∧ c ≠ 'e' ∧ c ≠ 'E'

/-- Text that does not begin with a digit. -/
def NoDigit (s : Str) : Prop := ∀ c, s.head? = some c → isDigit c = false

theorem Stops.noDigit {s : Str} (h : Stops s) : NoDigit s := fun c hc => (h c hc).1

theorem intLoop_small (lim last : Nat) (hlast : last < 10) (l : List Nat) (hl : ∀ d ∈ l, d < 10) (i : Nat) (rest : Str)
    (hr : NoDigit rest) (h : fold i l ≤ lim * 10 + last) :
    intLoop lim last i (l.map digitChar ++ rest) = (fold i l, false, rest) := by
  induction l generalizing i with
  | nil =>
    cases rest with
    | nil => rfl
    | cons c r =>
      have := hr c rfl
      simp [intLoop, this, fold]
  | cons d l ih =>
    obtain ⟨h1, h2⟩ := digit_facts d (hl d (by simp))
    have hd := hl d (by simp)
    have hge := fold_ge l (i * 10 + d)
    have hstep : ¬ (i ≥ lim ∧ (i ≠ lim ∨ (digitChar d).toNat - 48 > last)) := by
      have : fold i (d :: l) = fold (i * 10 + d) l := rfl
      omega
    simp only [List.map_cons, List.cons_append, intLoop, h1, if_true]
    rw [if_neg hstep, h2, ih (fun x hx => hl x (by simp [hx])) _ h]
    rfl

theorem intLoop_big (lim last : Nat) (hlast : last < 10) (l : List Nat) (hl : ∀ d ∈ l, d < 10) (i : Nat) (rest : Str)
    (h : lim * 10 + last < fold i l) (hi : i ≤ lim * 10 + last) :
    ∃ p l', intLoop lim last i (l.map digitChar ++ rest) = (p, true, l'.map digitChar ++ rest) ∧ fold p l' = fold i l ∧
      ∀ d ∈ l', d < 10 := by
  induction l generalizing i with
  | nil => exact absurd h (by simp [fold]; omega)
  | cons d l ih =>
    obtain ⟨h1, h2⟩ := digit_facts d (hl d (by simp))
    have hd := hl d (by simp)
    simp only [List.map_cons, List.cons_append, intLoop, h1, if_true]
    by_cases hstep : (i ≥ lim ∧ (i ≠ lim ∨ (digitChar d).toNat - 48 > last))
    · rw [if_pos hstep]
      exact ⟨i, d :: l, rfl, rfl, hl⟩
    · rw [if_neg hstep, h2]
      obtain ⟨p, l', e1, e2, e3⟩ := ih (fun x hx => hl x (by simp [hx])) (i * 10 + d) h (by omega)
      exact ⟨p, l', e1, e2, e3⟩

theorem dec_zero : dec 0 = ['0'] := by decide +kernel

theorem dec_pos (n : Nat) (h : 0 < n) :
    ∃ d l, dec n = digitChar d :: l.map digitChar ∧ 0 < d ∧ d < 10 ∧ (∀ x ∈ l, x < 10) ∧ fold d l = n := by
  obtain ⟨d, l, e, hd⟩ := Receiver.digitsF_head (n + 1) n (by omega) h
  have hlt := Receiver.digitsF_lt (n + 1) n
  have hv := Receiver.digitsF_val (n + 1) n (by omega)
  rw [e] at hlt hv
  refine ⟨d, l, by simp [dec, e], by omega, hlt d (by simp), fun x hx => hlt x (by simp [hx]), ?_⟩
  simpa [fold] using hv

theorem digitChar_ne_zero (d : Nat) (h : d < 10) (h0 : 0 < d) : digitChar d ≠ '0' ∧ digitChar d ≠ '-' := by
  have : ∀ d : Fin 10, 0 < d.val → digitChar d.val ≠ '0' ∧ digitChar d.val ≠ '-' := by decide +kernel
  exact this ⟨d, h⟩ h0

theorem wide_fold (minus : Bool) (d : Nat) (hd : d < 10) (l : List Nat) (hl : ∀ x ∈ l, x < 10) (rest : Str) (hr : NoDigit rest)
    (h : fold d l ≤ if minus then 2 ^ 63 else 2 ^ 64 - 1) :
    wide minus (if minus then intLoop 214748364 8 d (l.map digitChar ++ rest)
      else intLoop 429496729 5 d (l.map digitChar ++ rest)) = (fold d l, false, rest) := by
  cases minus with
  | true =>
    simp only [if_true] at h ⊢
    by_cases hs : fold d l ≤ 214748364 * 10 + 8
    · rw [intLoop_small 214748364 8 (by omega) l hl d rest hr hs]
      rfl
    · obtain ⟨p, l', e1, e2, e3⟩ := intLoop_big 214748364 8 (by omega) l hl d rest (by omega) (by omega)
      rw [e1]
      simp only [wide, if_true]
      have hf : fold p l' ≤ 922337203685477580 * 10 + 8 := by
        have : (2 : Nat) ^ 63 = 922337203685477580 * 10 + 8 := by decide
        omega
      rw [intLoop_small 922337203685477580 8 (by omega) l' e3 p rest hr hf, e2]
  | false =>
    simp only [Bool.false_eq_true, if_false] at h ⊢
    by_cases hs : fold d l ≤ 429496729 * 10 + 5
    · rw [intLoop_small 429496729 5 (by omega) l hl d rest hr hs]
      rfl
    · obtain ⟨p, l', e1, e2, e3⟩ := intLoop_big 429496729 5 (by omega) l hl d rest (by omega) (by omega)
      rw [e1]
      simp only [wide, if_true, Bool.false_eq_true, if_false]
      have hf : fold p l' ≤ 1844674407370955161 * 10 + 5 := by
        have : (2 : Nat) ^ 64 - 1 = 1844674407370955161 * 10 + 5 := by decide
        omega
      rw [intLoop_small 1844674407370955161 5 (by omega) l' e3 p rest hr hf, e2]

theorem intPart_dec (minus : Bool) (n : Nat) (rest : Str) (hr : NoDigit rest)
    (h : n ≤ if minus then 2 ^ 63 else 2 ^ 64 - 1) : intPart minus (dec n ++ rest) = some (n, false, rest) := by
  by_cases h0 : n = 0
  · subst h0
    rw [dec_zero]
    simp [intPart]
  · obtain ⟨d, l, e, hd0, hd, hl, hf⟩ := dec_pos n (by omega)
    obtain ⟨h1, h2⟩ := digit_facts d hd
    rw [e]
    simp only [List.cons_append, intPart]
    rw [if_neg (digitChar_ne_zero d hd hd0).1, h1, if_pos rfl, h2]
    have := wide_fold minus d hd l hl rest hr (by rw [hf]; exact h)
    rw [this, hf]

theorem fraction_stops (rest : Str) (hr : Stops rest) : fraction rest = some (false, rest) := by
  unfold fraction
  split
  · exact absurd rfl (hr '.' rfl).2.1
  · rfl

theorem exponent_stops (rest : Str) (hr : Stops rest) : exponent rest = some (false, rest) := by
  cases rest with
  | nil => rfl
  | cons c r =>
    have := hr c rfl
    simp [exponent, this.2.2.1, this.2.2.2]

theorem readNum_decimal (V : Str → Option Nat) (i : Int) (h : -(2 ^ 63 : Int) ≤ i ∧ i < (2 ^ 64 : Int)) (rest : Str)
    (hr : Stops rest) : readNum V (decimal i ++ rest) = .ok (.num i) rest := by
  have e63 : (2 : Int) ^ 63 = 9223372036854775808 := by decide
  have e64 : (2 : Int) ^ 64 = 18446744073709551616 := by decide
  have n63 : (2 : Nat) ^ 63 = 9223372036854775808 := by decide
  have n64 : (2 : Nat) ^ 64 - 1 = 18446744073709551615 := by decide
  by_cases hneg : i < 0
  · have hn : i.natAbs ≤ if true then 2 ^ 63 else 2 ^ 64 - 1 := by simp only [if_true]; omega
    have hp := intPart_dec true i.natAbs rest hr.noDigit hn
    simp only [decimal, if_pos hneg, readNum, List.cons_append, List.head?_cons, List.tail_cons, beq_self_eq_true, if_true, hp,
      Bool.false_eq_true, if_false, fraction_stops rest hr, exponent_stops rest hr, Bool.or_self]
    simp only [signed, if_true]
    congr 2
    omega
  · have hn : i.natAbs ≤ if false then 2 ^ 63 else 2 ^ 64 - 1 := by simp only [Bool.false_eq_true, if_false]; omega
    have hp := intPart_dec false i.natAbs rest hr.noDigit hn
    have hh : ((dec i.natAbs ++ rest).head? == some '-') = false := by
      by_cases h0 : i.natAbs = 0
      · rw [h0, dec_zero]; rfl
      · obtain ⟨d, l, e, hd0, hd, _, _⟩ := dec_pos i.natAbs (by omega)
        rw [e]
        simp [(digitChar_ne_zero d hd hd0).2]
    simp only [decimal, if_neg hneg, readNum, hh, Bool.false_eq_true, if_false, hp, fraction_stops rest hr,
      exponent_stops rest hr, Bool.or_self]
    simp only [signed, Bool.false_eq_true, if_false]
    congr 2
    omega

/-! ## Reading documents -/

theorem skipWs_cons (c : Char) (s : Str) (h : isWs c = false) : skipWs (c :: s) = c :: s := by
  simp [skipWs, h]

theorem readVal_num (V : Str → Option Nat) (d : Nat) (c : Char) (s : Str) (h : c = '-' ∨ isDigit c = true) :
    readVal V (d + 1) (c :: s) = readNum V (c :: s) := by
  unfold readVal
  split
  all_goals first | rfl | (rename_i e; simp only [List.cons.injEq] at e; rw [e.1] at h; exact absurd h (by decide))

/-- How the text of a value begins. -/
theorem text_head (D : Nat → Option Str) (j : Json) (h : Fits j) : ∃ c t, text D j = c :: t ∧ isWs c = false ∧
    c ≠ ']' ∧ c ≠ '}' ∧ c ≠ '\x00' ∧ (∀ i, j = .num i → c = '-' ∨ isDigit c = true) := by
  match j with
  | .null => exact ⟨'n', "ull".toList, by simp only [text]; decide, by decide, by decide, by decide, by decide, by simp⟩
  | .bool true => exact ⟨'t', "rue".toList, by simp only [text]; decide, by decide, by decide, by decide, by decide, by simp⟩
  | .bool false =>
    exact ⟨'f', "alse".toList, by simp only [text]; decide, by decide, by decide, by decide, by decide, by simp⟩
  | .dbl d => exact h.elim
  | .str s => exact ⟨'"', _, by simp only [text, quoted]; rfl, by decide, by decide, by decide, by decide, by simp⟩
  | .arr l => exact ⟨'[', _, by simp only [text]; rfl, by decide, by decide, by decide, by decide, by simp⟩
  | .obj l => exact ⟨'{', _, by simp only [text]; rfl, by decide, by decide, by decide, by decide, by simp⟩
  | .num i =>
    simp only [text, decimal]
    by_cases hneg : i < 0
    · rw [if_pos hneg]
      exact ⟨'-', _, rfl, by decide, by decide, by decide, by decide, fun _ _ => Or.inl rfl⟩
    · rw [if_neg hneg]
      by_cases h0 : i.natAbs = 0
      · rw [h0, dec_zero]
        exact ⟨'0', [], rfl, by decide, by decide, by decide, by decide, fun _ _ => Or.inr (by decide)⟩
      · obtain ⟨d, l, e, hd0, hd, _, _⟩ := dec_pos i.natAbs (by omega)
        rw [e]
        have : ∀ d : Fin 10, isWs (digitChar d.val) = false ∧ digitChar d.val ≠ ']' ∧ digitChar d.val ≠ '}' ∧
            digitChar d.val ≠ '\x00' ∧ isDigit (digitChar d.val) = true := by decide +kernel
        obtain ⟨a, b, c, e', f⟩ := this ⟨d, hd⟩
        exact ⟨_, _, rfl, a, b, c, e', fun _ _ => Or.inr f⟩

theorem skipWs_text (D : Nat → Option Str) (j : Json) (h : Fits j) (s : Str) : skipWs (text D j ++ s) = text D j ++ s := by
  obtain ⟨c, t, e, hw, _⟩ := text_head D j h
  rw [e]
  exact skipWs_cons c _ hw

theorem text_pos (D : Nat → Option Str) (j : Json) (h : Fits j) : 0 < (text D j).length := by
  obtain ⟨c, t, e, _⟩ := text_head D j h
  simp [e]

theorem textL_length (D : Nat → Option Str) (l : List Json) (b : Bool) (h : FitsL l) : l.length ≤ (textL D b l).length := by
  induction l generalizing b with
  | nil => simp
  | cons j l ih =>
    have := text_pos D j h.1
    have := ih false h.2
    simp only [textL, List.length_append, List.length_cons]
    omega

theorem textM_length (D : Nat → Option Str) (l : List (Str × Json)) (b : Bool) (h : FitsM l) :
    l.length ≤ (textM D b l).length := by
  induction l generalizing b with
  | nil => simp
  | cons x l ih =>
    obtain ⟨k, j⟩ := x
    have := ih false h.2
    simp only [textM, List.length_append, List.length_cons]
    omega

theorem stops_of (c : Char) (s : Str) (h : c = ',' ∨ c = ']' ∨ c = '}') : Stops (c :: s) := by
  intro x hx
  simp only [List.head?_cons, Option.some.injEq] at hx
  subst hx
  rcases h with rfl | rfl | rfl <;> decide

theorem readArr_other (pv : Str → R Json) (s : Str) (hs : skipWs s = s) (h : s.head? ≠ some ']') :
    readArr pv s = (elems pv (s.length + 1) s).bind fun l r => .ok (.arr l) r := by
  unfold readArr
  rw [hs]
  split
  · exact absurd rfl h
  · rfl

theorem readObj_other (pv : Str → R Json) (s : Str) (hs : skipWs s = s) (h : s.head? ≠ some '}') :
    readObj pv s = (members pv (s.length + 1) s).bind fun l r => .ok (.obj l) r := by
  unfold readObj
  rw [hs]
  split
  · exact absurd rfl h
  · rfl

theorem readKey_quoted (k s : Str) (hs : skipWs s = s) : readKey (quoted k ++ ':' :: s) = .ok k s := by
  have e : quoted k ++ ':' :: s = '"' :: (k.flatMap escChar ++ '"' :: ':' :: s) := by simp [quoted]
  rw [e]
  show (readStr .plain (k.flatMap escChar ++ '"' :: ':' :: s)).bind _ = _
  rw [readStr_flat]
  simp only [R.bind]
  rw [skipWs_cons _ _ (by decide)]
  simp only [hs]

/-- Values up to a depth are read. -/
def Reads (D : Nat → Option Str) (d : Nat) (pv : Str → R Json) : Prop :=
  ∀ j, Fits j → depth j ≤ d → ∀ rest, Stops rest → pv (text D j ++ rest) = .ok j rest

theorem elems_text (D : Nat → Option Str) (d : Nat) (pv : Str → R Json) (hpv : Reads D d pv) (l : List Json) (j : Json)
    (h : FitsL (j :: l)) (hd : depthL (j :: l) ≤ d) (n : Nat) (hn : (j :: l).length ≤ n) (rest : Str) :
    elems pv n (textL D true (j :: l) ++ ']' :: rest) = .ok (j :: l) rest := by
  induction l generalizing j n with
  | nil =>
    obtain ⟨n, rfl⟩ : ∃ m, n = m + 1 := ⟨n - 1, by simp at hn; omega⟩
    have hdj : depth j ≤ d := by simp only [depthL] at hd; omega
    simp only [textL, if_true, List.nil_append, List.append_assoc, elems]
    rw [hpv j h.1 hdj _ (stops_of _ _ (by simp))]
    simp only [R.bind]
    rw [skipWs_cons _ _ (by decide)]
    rfl
  | cons j' l' ih =>
    obtain ⟨n, rfl⟩ : ∃ m, n = m + 1 := ⟨n - 1, by simp at hn; omega⟩
    have hdj : depth j ≤ d := by simp only [depthL] at hd; omega
    have hdl : depthL (j' :: l') ≤ d := by simp only [depthL] at hd ⊢; omega
    have e : textL D true (j :: j' :: l') ++ ']' :: rest = text D j ++ ',' :: (textL D true (j' :: l') ++ ']' :: rest) := by
      simp [textL]
    rw [e, elems, hpv j h.1 hdj _ (stops_of _ _ (by simp))]
    have hs : skipWs (textL D true (j' :: l') ++ ']' :: rest) = textL D true (j' :: l') ++ ']' :: rest := by
      simp only [textL, if_true, List.nil_append, List.append_assoc]
      exact skipWs_text D j' h.2.1 _
    simp only [R.bind]
    rw [skipWs_cons _ _ (by decide)]
    simp only [hs]
    rw [ih j' h.2 hdl n (by simp only [List.length_cons] at hn ⊢; omega)]

theorem members_text (D : Nat → Option Str) (d : Nat) (pv : Str → R Json) (hpv : Reads D d pv) (l : List (Str × Json))
    (k : Str) (j : Json) (h : FitsM ((k, j) :: l)) (hd : depthM ((k, j) :: l) ≤ d) (n : Nat)
    (hn : ((k, j) :: l).length ≤ n) (rest : Str) :
    members pv n (textM D true ((k, j) :: l) ++ '}' :: rest) = .ok ((k, j) :: l) rest := by
  induction l generalizing k j n with
  | nil =>
    obtain ⟨n, rfl⟩ : ∃ m, n = m + 1 := ⟨n - 1, by simp at hn; omega⟩
    have hdj : depth j ≤ d := by simp only [depthM] at hd; omega
    simp only [textM, if_true, List.nil_append, List.append_assoc, List.cons_append, members]
    rw [readKey_quoted k _ (skipWs_text D j h.1 _)]
    simp only [R.bind]
    rw [hpv j h.1 hdj _ (stops_of _ _ (by simp))]
    simp only []
    rw [skipWs_cons _ _ (by decide)]
    rfl
  | cons x l' ih =>
    obtain ⟨k', j'⟩ := x
    obtain ⟨n, rfl⟩ : ∃ m, n = m + 1 := ⟨n - 1, by simp at hn; omega⟩
    have hdj : depth j ≤ d := by simp only [depthM] at hd; omega
    have hdl : depthM ((k', j') :: l') ≤ d := by simp only [depthM] at hd ⊢; omega
    have e : textM D true ((k, j) :: (k', j') :: l') ++ '}' :: rest =
        quoted k ++ ':' :: (text D j ++ ',' :: (textM D true ((k', j') :: l') ++ '}' :: rest)) := by
      simp [textM]
    rw [e, members, readKey_quoted k _ (skipWs_text D j h.1 _)]
    simp only [R.bind]
    rw [hpv j h.1 hdj _ (stops_of _ _ (by simp))]
    have hs : skipWs (textM D true ((k', j') :: l') ++ '}' :: rest) = textM D true ((k', j') :: l') ++ '}' :: rest := by
      simp only [textM, if_true, List.nil_append, quoted, List.cons_append]
      exact skipWs_cons _ _ (by decide)
    simp only []
    rw [skipWs_cons _ _ (by decide)]
    simp only [hs]
    rw [ih k' j' h.2 hdl n (by simp only [List.length_cons] at hn ⊢; omega)]

theorem readVal_text (V : Str → Option Nat) (D : Nat → Option Str) (d : Nat) : Reads D d (readVal V d) := by
  induction d with
  | zero => intro j _ hd; cases j <;> simp [depth] at hd
  | succ d ih =>
    intro j h hd rest hr
    match j with
    | .null => simp [text, readVal, word]
    | .bool true => simp [text, readVal, word]
    | .bool false => simp [text, readVal, word]
    | .dbl _ => exact h.elim
    | .str s =>
      have e : text D (.str s) ++ rest = '"' :: (s.flatMap escChar ++ '"' :: rest) := by simp [text, quoted]
      rw [e]
      show (readStr .plain (s.flatMap escChar ++ '"' :: rest)).bind _ = _
      rw [readStr_flat]
      rfl
    | .num i =>
      obtain ⟨c, t, e, _, _, _, _, hc⟩ := text_head D (.num i) h
      have := readNum_decimal V i h rest hr
      have e2 : decimal i = c :: t := by simpa [text] using e
      rw [e2] at this
      rw [e]
      rw [List.cons_append] at this ⊢
      rw [readVal_num V d c _ (hc i rfl), this]
    | .arr [] =>
      have e : text D (.arr []) ++ rest = '[' :: ']' :: rest := by simp [text, textL]
      rw [e]
      show readArr (readVal V d) (']' :: rest) = _
      unfold readArr
      rw [skipWs_cons _ _ (by decide)]
      rfl
    | .arr (j :: l) =>
      have e : text D (.arr (j :: l)) ++ rest = '[' :: (textL D true (j :: l) ++ ']' :: rest) := by simp [text]
      rw [e]
      show readArr (readVal V d) (textL D true (j :: l) ++ ']' :: rest) = _
      have hf : FitsL (j :: l) := h
      have hs : skipWs (textL D true (j :: l) ++ ']' :: rest) = textL D true (j :: l) ++ ']' :: rest := by
        simp only [textL, if_true, List.nil_append, List.append_assoc]
        exact skipWs_text D j hf.1 _
      have hh : (textL D true (j :: l) ++ ']' :: rest).head? ≠ some ']' := by
        obtain ⟨c, t, e, _, hc, _⟩ := text_head D j hf.1
        simp only [textL, if_true, List.nil_append, e]
        simp [hc]
      rw [readArr_other _ _ hs hh]
      have hlen := textL_length D (j :: l) true hf
      have hdl : depthL (j :: l) ≤ d := by
        have : depthL (j :: l) + 1 ≤ d + 1 := by simpa only [depth] using hd
        omega
      rw [elems_text D d _ ih l j hf hdl _ (by simp only [List.length_append]; omega) rest]
      rfl
    | .obj [] =>
      have e : text D (.obj []) ++ rest = '{' :: '}' :: rest := by simp [text, textM]
      rw [e]
      show readObj (readVal V d) ('}' :: rest) = _
      unfold readObj
      rw [skipWs_cons _ _ (by decide)]
      rfl
    | .obj ((k, j) :: l) =>
      have e : text D (.obj ((k, j) :: l)) ++ rest = '{' :: (textM D true ((k, j) :: l) ++ '}' :: rest) := by simp [text]
      rw [e]
      show readObj (readVal V d) (textM D true ((k, j) :: l) ++ '}' :: rest) = _
      have hf : FitsM ((k, j) :: l) := h
      have hs : skipWs (textM D true ((k, j) :: l) ++ '}' :: rest) = textM D true ((k, j) :: l) ++ '}' :: rest := by
        simp only [textM, if_true, List.nil_append, quoted, List.cons_append]
        exact skipWs_cons _ _ (by decide)
      have hh : (textM D true ((k, j) :: l) ++ '}' :: rest).head? ≠ some '}' := by
        simp [textM, quoted]
      rw [readObj_other _ _ hs hh]
      have hlen := textM_length D ((k, j) :: l) true hf
      have hdl : depthM ((k, j) :: l) ≤ d := by
        have : depthM ((k, j) :: l) + 1 ≤ d + 1 := by simpa only [depth] using hd
        omega
      rw [members_text D d _ ih l k j hf hdl _ (by simp only [List.length_append]; omega) rest]
      rfl

/-- C116: the text written for a document whose numbers are integers of 64 bits reads back as that document, whatever
its strings contain, however long it is and however deep, given the stack for its depth. -/
theorem C116 (D : Nat → Option Str) (V : Str → Option Nat) (j : Json) (h : Fits j) (room : Nat) (hd : depth j ≤ room) :
    parse V room (write D j) = .ok j [] := by
  rw [(C116_text D j h).1]
  have e := readVal_text V D room j h hd [] (by intro c hc; cases hc)
  rw [List.append_nil] at e
  have hs := skipWs_text D j h []
  rw [List.append_nil] at hs
  obtain ⟨c, t, ht, _, _, _, hc, _⟩ := text_head D j h
  have ha : atEnd (text D j) = false := by rw [ht]; simp [atEnd, hc]
  unfold parse
  rw [hs, ha, e]
  rfl

/-! ## No NUL character is written -/

theorem escChar_nul (c : Char) : '\x00' ∉ escChar c := by
  by_cases h : c.toNat < 32
  · have : ∀ n : Fin 32, '\x00' ∉ escChar (Char.ofNat n.val) := by decide +kernel
    have := this ⟨c.toNat, h⟩
    simpa using this
  · unfold escChar
    split
    · decide
    · decide
    · decide
    · decide
    · decide
    · decide
    · decide
    · rw [if_neg h]
      intro hc
      simp only [List.mem_cons, List.not_mem_nil, or_false] at hc
      rw [← hc] at h
      exact h (by decide)

theorem quoted_nul (s : Str) : '\x00' ∉ quoted s := by
  intro h
  simp only [quoted, List.cons_append, List.mem_cons, List.mem_append, List.mem_flatMap, List.not_mem_nil, or_false] at h
  rcases h with h | ⟨c, _, h⟩ | h
  · exact absurd h (by decide)
  · exact escChar_nul c h
  · exact absurd h (by decide)

theorem decimal_nul (i : Int) : '\x00' ∉ decimal i := by
  have hd : ∀ n, '\x00' ∉ dec n := by
    intro n h
    simp only [dec, List.mem_map] at h
    obtain ⟨d, hd, e⟩ := h
    have : ∀ d : Fin 10, digitChar d.val ≠ '\x00' := by decide +kernel
    exact this ⟨d, Receiver.digitsF_lt _ _ d hd⟩ e
  unfold decimal
  split
  · intro h
    rcases List.mem_cons.1 h with h | h
    · exact absurd h (by decide)
    · exact hd _ h
  · exact hd _

mutual
theorem text_nul (D : Nat → Option Str) (j : Json) (h : Fits j) : '\x00' ∉ text D j := by
  match j with
  | .null => simp only [text]; decide
  | .bool true => simp only [text]; decide
  | .bool false => simp only [text]; decide
  | .num i => simp only [text]; exact decimal_nul i
  | .dbl _ => exact h.elim
  | .str s => simp only [text]; exact quoted_nul s
  | .arr l =>
    have := textL_nul D l true h
    simp only [text, List.mem_cons, List.mem_append, List.not_mem_nil, or_false, not_or]
    exact ⟨by decide, this, by decide⟩
  | .obj l =>
    have := textM_nul D l true h
    simp only [text, List.mem_cons, List.mem_append, List.not_mem_nil, or_false, not_or]
    exact ⟨by decide, this, by decide⟩
theorem textL_nul (D : Nat → Option Str) (l : List Json) (b : Bool) (h : FitsL l) : '\x00' ∉ textL D b l := by
  match l with
  | [] => simp [textL]
  | j :: l =>
    have h1 := text_nul D j h.1
    have h2 := textL_nul D l false h.2
    simp only [textL, List.mem_append, not_or]
    exact ⟨by cases b <;> decide, h1, h2⟩
theorem textM_nul (D : Nat → Option Str) (l : List (Str × Json)) (b : Bool) (h : FitsM l) : '\x00' ∉ textM D b l := by
  match l with
  | [] => simp [textM]
  | (k, j) :: l =>
    have h1 := text_nul D j h.1
    have h2 := textM_nul D l false h.2
    simp only [textM, List.mem_append, List.mem_cons, not_or]
    exact ⟨by cases b <;> decide, quoted_nul k, by decide, h1, h2⟩
end

/-- No NUL character is written, also for strings that contain one: the text survives being passed as `const char *`. -/
theorem C116_nul (D : Nat → Option Str) (j : Json) (h : Fits j) : '\x00' ∉ write D j := by
  rw [(C116_text D j h).1]
  exact text_nul D j h

/-- A document with every kind of value: nested containers, the largest and smallest integers, and strings with a quote,
a backslash, a line end, a NUL and another control character. -/
def exDoc : Json := .obj [("a\"b\\".toList, .arr [.num 18446744073709551615, .num (-9223372036854775808), .num 0, .null,
  .bool true, .arr [], .obj []]), (['\n', '\x00', '\x1f', 'x'], .obj [([], .str "/".toList), ([], .bool false)])]

/-- Non-vacuity: the document fits, and what is written for it. -/
example : Fits exDoc ∧ depth exDoc = 3 := by
  refine ⟨?_, by decide +kernel⟩
  simp only [exDoc, Fits, FitsM, FitsL, and_true]
  decide

example : String.ofList (write (fun _ => none) exDoc) =
    "{\"a\\\"b\\\\\":[18446744073709551615,-9223372036854775808,0,null,true,[],{}],\"\\n\\u0000\\u001Fx\":{\"\":\"/\",\"\":false}}" := by
  decide +kernel

/-- A number that is not written (NaN or infinity) ends the text, which cannot be read. -/
theorem C116_nan (D : Nat → Option Str) (V : Str → Option Nat) (d : Nat) (h : D d = none) :
    write D (.obj [("a".toList, .dbl d), ("b".toList, .null)]) = "{\"a\":".toList ∧
      parse V 5 (write D (.obj [("a".toList, .dbl d), ("b".toList, .null)])) = .err := by
  have e : write D (.obj [("a".toList, .dbl d), ("b".toList, .null)]) = "{\"a\":".toList := by
    simp only [write, events, eventsM, upTo, List.cons_append, List.nil_append, h, Option.isNone_none, if_true, run,
      List.foldl_cons, List.foldl_nil, step, Option.getD_none]
    decide +kernel
  refine ⟨e, ?_⟩
  rw [e]
  rfl

/-! ## The stack -/

/-- The number of opening brackets. -/
def brackets (s : Str) : Nat := s.countP (fun c => c == '[' || c == '{')

theorem brackets_suffix {r s : Str} (h : r <:+ s) : brackets r ≤ brackets s := by
  obtain ⟨p, rfl⟩ := h
  simp [brackets]

theorem skipWs_suffix (s : Str) : skipWs s <:+ s := List.dropWhile_suffix _

/-- What a reading function does to the text: it never loops for ever, it eats at least a character, and running out of
stack needs brackets. -/
structure Eats {α : Type} (f : Str → R α) (d : Nat) : Prop where
  fin : ∀ s, f s ≠ .stuck
  eats : ∀ s v r, f s = .ok v r → r <:+ s ∧ r.length < s.length
  deep : ∀ s, f s = .deep → d ≤ brackets s

theorem front_ok {a : Str} {x : R Str} {v : Str} {r : Str} (h : x.front a = .ok v r) : ∃ v', x = .ok v' r := by
  cases x with
  | ok v' r' => simp only [R.front, R.bind, R.ok.injEq] at h; exact ⟨v', by rw [h.2]⟩
  | err => simp [R.front, R.bind] at h
  | deep => simp [R.front, R.bind] at h
  | stuck => simp [R.front, R.bind] at h

/-- Reading a string ends with a string or an error. -/
def Plain {α : Type} (x : R α) (s : Str) : Prop := x = .err ∨ ∃ v r, x = .ok v r ∧ r <:+ s ∧ r.length < s.length

theorem Plain.cons {α : Type} {x : R α} {s : Str} (h : Plain x s) (c : Char) : Plain x (c :: s) := by
  rcases h with h | ⟨v, r, e, h1, h2⟩
  · exact Or.inl h
  · exact Or.inr ⟨v, r, e, h1.trans (List.suffix_cons c s), by simp; omega⟩

theorem Plain.front {x : R Str} {s : Str} (h : Plain x s) (a : Str) : Plain (x.front a) s := by
  rcases h with h | ⟨v, r, e, h1, h2⟩
  · exact Or.inl (by rw [h]; rfl)
  · exact Or.inr ⟨a ++ v, r, by rw [e]; rfl, h1, h2⟩

theorem readStr_plain (s : Str) (a : At) : Plain (readStr a s) s := by
  induction s generalizing a with
  | nil => exact Or.inl (by cases a <;> rfl)
  | cons c s ih =>
    cases a with
    | plain =>
      unfold readStr
      split
      · exact (ih _).cons c
      · split
        · exact Or.inr ⟨[], s, rfl, List.suffix_cons c s, by simp⟩
        · split
          · exact Or.inl rfl
          · exact ((ih _).front _).cons c
    | esc =>
      unfold readStr
      split
      · exact ((ih _).front _).cons c
      · split
        · exact (ih _).cons c
        · exact Or.inl rfl
    | hex more cp lead =>
      unfold readStr
      split
      · exact Or.inl rfl
      · split
        · exact (ih _).cons c
        · split
          · split
            · exact (ih _).cons c
            · exact ((ih _).front _).cons c
          · split
            · exact Or.inl rfl
            · exact ((ih _).front _).cons c
    | low1 l =>
      unfold readStr
      split
      · exact (ih _).cons c
      · exact Or.inl rfl
    | low2 l =>
      unfold readStr
      split
      · exact (ih _).cons c
      · exact Or.inl rfl

theorem intLoop_suffix (lim last i : Nat) (s : Str) : (intLoop lim last i s).2.2 <:+ s := by
  induction s generalizing i with
  | nil => exact List.suffix_refl _
  | cons c s ih =>
    unfold intLoop
    split
    · split
      · exact List.suffix_refl _
      · exact (ih _).trans (List.suffix_cons c s)
    · exact List.suffix_refl _

theorem wide_suffix (minus : Bool) (r : Nat × Bool × Str) : (wide minus r).2.2 <:+ r.2.2 := by
  unfold wide
  split
  · split <;> exact intLoop_suffix _ _ _ _
  · exact List.suffix_refl _

theorem intPart_suffix (minus : Bool) (s : Str) (i : Nat) (b : Bool) (r : Str) (h : intPart minus s = some (i, b, r)) :
    r <:+ s ∧ r.length < s.length := by
  cases s with
  | nil => simp [intPart] at h
  | cons c s =>
    have key : r <:+ s := by
      simp only [intPart] at h
      split at h
      · simp only [Option.some.injEq, Prod.mk.injEq] at h
        rw [h.2.2]
        exact List.suffix_refl _
      · split at h
        · simp only [Option.some.injEq] at h
          have hw := wide_suffix minus (if minus then intLoop 214748364 8 (c.toNat - 48) s else intLoop 429496729 5 (c.toNat - 48) s)
          rw [h] at hw
          refine List.IsSuffix.trans hw ?_
          split <;> exact intLoop_suffix _ _ _ _
        · cases h
    exact ⟨key.trans (List.suffix_cons c s), by have := key.length_le; simp; omega⟩

theorem fraction_suffix (s r : Str) (b : Bool) (h : fraction s = some (b, r)) : r <:+ s := by
  unfold fraction at h
  split at h
  · split at h
    · simp only [Option.some.injEq, Prod.mk.injEq] at h
      rw [← h.2]
      exact (List.dropWhile_suffix _).trans (List.suffix_cons _ _)
    · cases h
  · simp only [Option.some.injEq, Prod.mk.injEq] at h
    rw [h.2]
    exact List.suffix_refl _

theorem expSign_suffix (s : Str) : expSign s <:+ s := by
  unfold expSign
  split
  · exact List.suffix_cons _ _
  · exact List.suffix_cons _ _
  · exact List.suffix_refl _

theorem exponent_suffix (s r : Str) (b : Bool) (h : exponent s = some (b, r)) : r <:+ s := by
  unfold exponent at h
  split at h
  · simp only [Option.some.injEq, Prod.mk.injEq] at h
    rw [← h.2]
    exact List.suffix_refl _
  · split at h
    · split at h
      · simp only [Option.some.injEq, Prod.mk.injEq] at h
        rw [← h.2]
        exact ((List.dropWhile_suffix _).trans (expSign_suffix _)).trans (List.suffix_cons _ _)
      · cases h
    · simp only [Option.some.injEq, Prod.mk.injEq] at h
      rw [← h.2]
      exact List.suffix_refl _

theorem readNum_plain (V : Str → Option Nat) (s : Str) : Plain (readNum V s) s := by
  have hm : ∀ m : Bool, (if m = true then s.tail else s) <:+ s := by
    intro m
    cases m
    · exact List.suffix_refl _
    · exact List.tail_suffix s
  unfold readNum
  dsimp only
  split
  · exact Or.inl rfl
  · next i big s1 h1 =>
    split
    · exact Or.inl rfl
    · next frac s2 h2 =>
      split
      · exact Or.inl rfl
      · next exp s3 h3 =>
        obtain ⟨a1, a2⟩ := intPart_suffix _ _ _ _ _ h1
        have b1 := fraction_suffix _ _ _ h2
        have b2 : s2 <:+ s1 := by
          refine b1.trans ?_
          split
          · exact List.dropWhile_suffix _
          · exact List.suffix_refl _
        have c1 := (exponent_suffix _ _ _ h3).trans b2
        have d1 := c1.trans (a1.trans (hm _))
        have d2 : s3.length < s.length := by
          have := c1.length_le
          have := (hm (s.head? == some '-')).length_le
          omega
        split
        · split
          · exact Or.inl rfl
          · exact Or.inr ⟨_, _, rfl, d1, d2⟩
        · exact Or.inr ⟨_, _, rfl, d1, d2⟩

theorem readKey_plain (s : Str) : Plain (readKey s) s := by
  unfold readKey
  split
  · next s1 =>
    rcases readStr_plain s1 .plain with h | ⟨v, r, e, h1, h2⟩
    · exact Or.inl (by rw [h]; rfl)
    · rw [e]
      simp only [R.bind]
      split
      · next s3 he =>
        have h3 : s3 <:+ r := by
          have := skipWs_suffix r
          rw [he] at this
          exact (List.suffix_cons _ _).trans this
        have h4 : skipWs s3 <:+ s1 := ((skipWs_suffix s3).trans h3).trans h1
        exact Or.inr ⟨v, _, rfl, h4.trans (List.suffix_cons _ _), by have := h4.length_le; simp; omega⟩
      · exact Or.inl rfl
  · exact Or.inl rfl

theorem word_plain (w : Str) (v : Json) (c : Char) (s : Str) : Plain (word w v s) (c :: s) := by
  unfold word
  split
  · exact Or.inr ⟨v, _, rfl, (List.drop_suffix _ _).trans (List.suffix_cons _ _), by simp; omega⟩
  · exact Or.inl rfl

/-- How a loop over elements or members ends. -/
def Looped {α : Type} (x : R α) (s : Str) (d : Nat) : Prop :=
  x = .err ∨ (x = .deep ∧ d ≤ brackets s) ∨ ∃ v r, x = .ok v r ∧ r <:+ s ∧ r.length < s.length

theorem Eats.cases {α : Type} {f : Str → R α} {d : Nat} (h : Eats f d) (s : Str) : Looped (f s) s d := by
  cases e : f s with
  | ok v r => exact Or.inr (Or.inr ⟨v, r, rfl, h.eats s v r e⟩)
  | err => exact Or.inl rfl
  | deep => exact Or.inr (Or.inl ⟨rfl, h.deep s e⟩)
  | stuck => exact absurd e (h.fin s)

theorem elems_looped (pv : Str → R Json) (d : Nat) (hpv : Eats pv d) (n : Nat) (s : Str) (hn : s.length < n) :
    Looped (elems pv n s) s d := by
  induction n generalizing s with
  | zero => omega
  | succ n ih =>
    rw [elems]
    rcases hpv.cases s with e | ⟨e, hd⟩ | ⟨v, r, e, h1, h2⟩
    · exact Or.inl (by rw [e]; rfl)
    · exact Or.inr (Or.inl ⟨by rw [e]; rfl, hd⟩)
    · rw [e]
      simp only [R.bind]
      split
      · next s2 he =>
        have h3 : s2 <:+ r := by
          have := skipWs_suffix r
          rw [he] at this
          exact (List.suffix_cons _ _).trans this
        have h4 : skipWs s2 <:+ s := ((skipWs_suffix s2).trans h3).trans h1
        have h5 : (skipWs s2).length < s.length := by
          have := ((skipWs_suffix s2).trans h3).length_le
          omega
        rcases ih (skipWs s2) (by omega) with e2 | ⟨e2, hd⟩ | ⟨v2, r2, e2, g1, g2⟩
        · exact Or.inl (by rw [e2])
        · exact Or.inr (Or.inl ⟨by rw [e2], Nat.le_trans hd (brackets_suffix h4)⟩)
        · exact Or.inr (Or.inr ⟨v :: v2, r2, by rw [e2], g1.trans h4, by omega⟩)
      · next s2 he =>
        have h3 : s2 <:+ r := by
          have := skipWs_suffix r
          rw [he] at this
          exact (List.suffix_cons _ _).trans this
        exact Or.inr (Or.inr ⟨[v], s2, rfl, h3.trans h1, by have := h3.length_le; omega⟩)
      · exact Or.inl rfl

theorem members_looped (pv : Str → R Json) (d : Nat) (hpv : Eats pv d) (n : Nat) (s : Str) (hn : s.length < n) :
    Looped (members pv n s) s d := by
  induction n generalizing s with
  | zero => omega
  | succ n ih =>
    rw [members]
    rcases readKey_plain s with e | ⟨k, s1, e, k1, k2⟩
    · exact Or.inl (by rw [e]; rfl)
    rw [e]
    simp only [R.bind]
    rcases hpv.cases s1 with e | ⟨e, hd⟩ | ⟨v, r, e, h1, h2⟩
    · exact Or.inl (by rw [e])
    · exact Or.inr (Or.inl ⟨by rw [e], Nat.le_trans hd (brackets_suffix k1)⟩)
    · rw [e]
      simp only []
      split
      · next s2 he =>
        have h3 : s2 <:+ r := by
          have := skipWs_suffix r
          rw [he] at this
          exact (List.suffix_cons _ _).trans this
        have h4 : skipWs s2 <:+ s := (((skipWs_suffix s2).trans h3).trans h1).trans k1
        have h5 : (skipWs s2).length < s.length := by
          have := ((skipWs_suffix s2).trans h3).length_le
          omega
        rcases ih (skipWs s2) (by omega) with e2 | ⟨e2, hd⟩ | ⟨v2, r2, e2, g1, g2⟩
        · exact Or.inl (by rw [e2])
        · exact Or.inr (Or.inl ⟨by rw [e2], Nat.le_trans hd (brackets_suffix h4)⟩)
        · exact Or.inr (Or.inr ⟨(k, v) :: v2, r2, by rw [e2], g1.trans h4, by omega⟩)
      · next s2 he =>
        have h3 : s2 <:+ r := by
          have := skipWs_suffix r
          rw [he] at this
          exact (List.suffix_cons _ _).trans this
        exact Or.inr (Or.inr ⟨[(k, v)], s2, rfl, (h3.trans h1).trans k1, by have := h3.length_le; omega⟩)
      · exact Or.inl rfl

theorem readArr_looped (pv : Str → R Json) (d : Nat) (hpv : Eats pv d) (s : Str) :
    Looped (readArr pv s) ('[' :: s) (d + 1) := by
  have hw := skipWs_suffix s
  unfold readArr
  split
  · next r he =>
    rw [he] at hw
    have h3 : r <:+ s := (List.suffix_cons _ _).trans hw
    exact Or.inr (Or.inr ⟨_, r, rfl, h3.trans (List.suffix_cons _ _), by have := h3.length_le; simp; omega⟩)
  · rcases elems_looped pv d hpv _ (skipWs s) (Nat.lt_succ_self _) with e | ⟨e, hd⟩ | ⟨v, r, e, h1, h2⟩
    · exact Or.inl (by rw [e]; rfl)
    · refine Or.inr (Or.inl ⟨by rw [e]; rfl, ?_⟩)
      have := brackets_suffix hw
      have : brackets ('[' :: s) = brackets s + 1 := by simp [brackets]
      omega
    · have h3 := h1.trans hw
      exact Or.inr (Or.inr ⟨_, r, by rw [e]; rfl, h3.trans (List.suffix_cons _ _), by have := h3.length_le; simp; omega⟩)

theorem readObj_looped (pv : Str → R Json) (d : Nat) (hpv : Eats pv d) (s : Str) :
    Looped (readObj pv s) ('{' :: s) (d + 1) := by
  have hw := skipWs_suffix s
  unfold readObj
  split
  · next r he =>
    rw [he] at hw
    have h3 : r <:+ s := (List.suffix_cons _ _).trans hw
    exact Or.inr (Or.inr ⟨_, r, rfl, h3.trans (List.suffix_cons _ _), by have := h3.length_le; simp; omega⟩)
  · rcases members_looped pv d hpv _ (skipWs s) (Nat.lt_succ_self _) with e | ⟨e, hd⟩ | ⟨v, r, e, h1, h2⟩
    · exact Or.inl (by rw [e]; rfl)
    · refine Or.inr (Or.inl ⟨by rw [e]; rfl, ?_⟩)
      have := brackets_suffix hw
      have : brackets ('{' :: s) = brackets s + 1 := by simp [brackets]
      omega
    · have h3 := h1.trans hw
      exact Or.inr (Or.inr ⟨_, r, by rw [e]; rfl, h3.trans (List.suffix_cons _ _), by have := h3.length_le; simp; omega⟩)

theorem Looped.eats {α : Type} {f : Str → R α} {d : Nat} (h : ∀ s, Looped (f s) s d) : Eats f d := by
  refine ⟨fun s e => ?_, fun s v r e => ?_, fun s e => ?_⟩
  · rcases h s with e2 | ⟨e2, _⟩ | ⟨_, _, e2, _⟩ <;> rw [e] at e2 <;> cases e2
  · rcases h s with e2 | ⟨e2, _⟩ | ⟨_, _, e2, g⟩ <;> rw [e] at e2 <;> cases e2
    exact g
  · rcases h s with e2 | ⟨e2, g⟩ | ⟨_, _, e2, _⟩ <;> rw [e] at e2 <;> cases e2
    exact g

theorem Plain.looped {α : Type} {x : R α} {s : Str} (h : Plain x s) (d : Nat) : Looped x s d := by
  rcases h with h | h
  · exact Or.inl h
  · exact Or.inr (Or.inr h)

theorem readVal_eats (V : Str → Option Nat) (d : Nat) : Eats (readVal V d) d := by
  induction d with
  | zero => exact Looped.eats (fun s => Or.inr (Or.inl ⟨rfl, Nat.zero_le _⟩))
  | succ d ih =>
    refine Looped.eats (fun s => ?_)
    unfold readVal
    split
    · exact (word_plain _ _ _ _).looped _
    · exact (word_plain _ _ _ _).looped _
    · exact (word_plain _ _ _ _).looped _
    · next r =>
      rcases (readStr_plain r .plain).cons '"' with h | ⟨v, r', e, g⟩
      · exact Or.inl (by rw [h]; rfl)
      · exact Or.inr (Or.inr ⟨.str v, r', by rw [e]; rfl, g⟩)
    · exact readObj_looped _ d ih _
    · exact readArr_looped _ d ih _
    · exact (readNum_plain V s).looped _

/-- Reading always ends: with a document, an error or a crash (the counter of the model's loops never runs out). -/
theorem C117_ends (V : Str → Option Nat) (room : Nat) (s : Str) : parse V room s ≠ .stuck := by
  unfold parse
  split
  · simp
  · intro h
    rcases (readVal_eats V room).cases (skipWs s) with e | ⟨e, _⟩ | ⟨v, r, e, _⟩ <;> rw [e] at h <;> simp only [R.bind] at h
    · cases h
    · cases h
    · split at h <;> cases h

/-- The full claim: some size of the stack suffices for every text. -/
def C117_statement (V : Str → Option Nat) : Prop := ∃ room, ∀ s, parse V room s ≠ .deep

theorem readVal_nest (V : Str → Option Nat) (d : Nat) : readVal V d (List.replicate (d + 1) '[') = .deep := by
  induction d with
  | zero => rfl
  | succ d ih =>
    show readArr (readVal V d) (List.replicate (d + 1) '[') = .deep
    have hs : skipWs (List.replicate (d + 1) '[') = List.replicate (d + 1) '[' := by
      rw [List.replicate_succ]
      exact skipWs_cons _ _ (by decide)
    rw [readArr_other _ _ hs (by simp [List.replicate_succ])]
    rw [elems, ih]
    rfl

/-- Every size of the stack is exhausted by a text of one more opening brackets. -/
theorem C117_nest (V : Str → Option Nat) (room : Nat) : parse V room (List.replicate (room + 1) '[') = .deep := by
  have hs : skipWs (List.replicate (room + 1) '[') = List.replicate (room + 1) '[' := by
    rw [List.replicate_succ]
    exact skipWs_cons _ _ (by decide)
  have ha : atEnd (List.replicate (room + 1) '[') = false := by
    rw [List.replicate_succ]
    rfl
  unfold parse
  rw [hs, ha, readVal_nest]
  rfl

theorem C117_violated (V : Str → Option Nat) : ¬ C117_statement V :=
  fun ⟨room, h⟩ => h _ (C117_nest V room)

/-- What holds: a text with fewer opening brackets than there is room for does not exhaust the stack. -/
theorem C117_partial (V : Str → Option Nat) (room : Nat) (s : Str) (h : brackets s < room) : parse V room s ≠ .deep := by
  unfold parse
  split
  · simp
  · intro e
    have hb := brackets_suffix (skipWs_suffix s)
    rcases (readVal_eats V room).cases (skipWs s) with e2 | ⟨_, hd⟩ | ⟨v, r, e2, _⟩
    · rw [e2] at e; cases e
    · omega
    · rw [e2] at e
      simp only [R.bind] at e
      split at e <;> cases e

/-- Non-vacuity: a text with two brackets and its document. -/
example : brackets "{\"a\": [1, 2]}".toList = 2 := by decide +kernel
example : (match parse (fun _ => none) 3 " {\"a\" :[1 , -2]}\n".toList with
  | .ok (.obj [(k, .arr [.num a, .num b])]) r => decide (k = "a".toList ∧ a = 1 ∧ b = -2 ∧ r = [])
  | _ => false) = true := by decide +kernel

end Verif.JsonText
