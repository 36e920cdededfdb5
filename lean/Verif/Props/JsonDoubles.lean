import Verif.Props.JsonGrammar

/-!
C116 and C119 with numbers that are not integers of 64 bits: if each of them is written as a number of the grammar that
is read back as itself, the document is.
-/
namespace Verif.JsonText
open Verif.Ipc (Str Json)
open Verif.Receiver (dec digitsF digitChar)

mutual
/-- All numbers are integers of 64 bits, or written as a text that denotes them. -/
def Okay (D : Nat → Option Str) (V : Str → Option Nat) : Json → Prop
  | .null => True
  | .bool _ => True
  | .num i => -(2 ^ 63 : Int) ≤ i ∧ i < (2 ^ 64 : Int)
  | .dbl d => ∃ t, D d = some t ∧ JVal V t (.dbl d)
  | .str _ => True
  | .arr l => OkayL D V l
  | .obj l => OkayM D V l
def OkayL (D : Nat → Option Str) (V : Str → Option Nat) : List Json → Prop
  | [] => True
  | j :: l => Okay D V j ∧ OkayL D V l
def OkayM (D : Nat → Option Str) (V : Str → Option Nat) : List (Str × Json) → Prop
  | [] => True
  | (_, j) :: l => Okay D V j ∧ OkayM D V l
end

/-! ## The text of a document is a text of the grammar -/

theorem chars_esc (c : Char) (t s : Str) (h : Chars t s) : Chars (escChar c ++ t) (c :: s) := by
  by_cases hc : c.toNat < 32
  · have hhex : ∀ k : Fin 16, Hex (hexDigit k.val) k.val := by unfold Hex; decide +kernel
    have h0 : Hex '0' 0 := by unfold Hex; decide +kernel
    have h4 : Hex4 ['0', '0', hexDigit (c.toNat / 16), hexDigit (c.toNat % 16)] c.toNat :=
      ⟨_, _, _, _, 0, 0, c.toNat / 16, c.toNat % 16, rfl, h0, h0, hhex ⟨_, by omega⟩, hhex ⟨_, by omega⟩, by omega⟩
    have hu : Chars ('\\' :: 'u' :: '0' :: '0' :: hexDigit (c.toNat / 16) :: hexDigit (c.toNat % 16) :: t) (c :: s) := by
      have := Chars.uni _ _ t s h4 (by omega) h
      have e : utf8 c.toNat = [c] := by
        unfold utf8
        rw [if_pos (by omega), Char.ofNat_toNat]
      rw [e] at this
      exact this
    unfold escChar
    split
    · exact Chars.esc '"' _ t s (by decide) h
    · exact Chars.esc '\\' _ t s (by decide) h
    · exact Chars.esc 'b' _ t s (by decide) h
    · exact Chars.esc 't' _ t s (by decide) h
    · exact Chars.esc 'n' _ t s (by decide) h
    · exact Chars.esc 'f' _ t s (by decide) h
    · exact Chars.esc 'r' _ t s (by decide) h
    · rw [if_pos hc]
      exact hu
  · unfold escChar
    split
    · exact Chars.esc '"' _ t s (by decide) h
    · exact Chars.esc '\\' _ t s (by decide) h
    · exact absurd (by decide) hc
    · exact absurd (by decide) hc
    · exact absurd (by decide) hc
    · exact absurd (by decide) hc
    · exact absurd (by decide) hc
    · next n1 n2 _ _ _ _ _ =>
      rw [if_neg hc]
      exact Chars.plain c t s (by omega) n1 n2 h

theorem chars_text (s : Str) : Chars (s.flatMap escChar) s := by
  induction s with
  | nil => exact Chars.nil
  | cons c s ih => rw [List.flatMap_cons]; exact chars_esc c _ _ ih

theorem jval_num (V : Str → Option Nat) (i : Int) (h : -(2 ^ 63 : Int) ≤ i ∧ i < (2 ^ 64 : Int)) :
    JVal V (decimal i) (.num i) := by
  have e63 : (2 : Int) ^ 63 = 9223372036854775808 := by decide
  have e64 : (2 : Int) ^ 64 = 18446744073709551616 := by decide
  have n63 : (2 : Nat) ^ 63 = 9223372036854775808 := by decide
  have n64 : (2 : Nat) ^ 64 = 18446744073709551616 := by decide
  rw [e63, e64] at h
  unfold decimal
  split
  · have := JVal.int (V := V) true i.natAbs (by simp only [InRange, if_true]; omega)
    have e : (if true = true then -(i.natAbs : Int) else (i.natAbs : Int)) = i := by
      rw [if_pos rfl]; omega
    rw [e] at this
    exact this
  · have := JVal.int (V := V) false i.natAbs (by simp only [InRange, Bool.false_eq_true, if_false]; omega)
    have e : (if false = true then -(i.natAbs : Int) else (i.natAbs : Int)) = i := by
      rw [if_neg (by decide)]; omega
    rw [e] at this
    exact this

theorem textL_false (D : Nat → Option Str) (l : List Json) (h : l ≠ []) : textL D false l = ',' :: textL D true l := by
  cases l with
  | nil => exact absurd rfl h
  | cons j l => simp [textL]

theorem textM_false (D : Nat → Option Str) (l : List (Str × Json)) (h : l ≠ []) :
    textM D false l = ',' :: textM D true l := by
  cases l with
  | nil => exact absurd rfl h
  | cons j l => simp [textM]

theorem key_text (k : Str) : Key (quoted k ++ [':']) k :=
  ⟨[], _, [], [], Ws.nil, chars_text k, Ws.nil, Ws.nil, by simp [quoted]⟩

mutual
theorem jval_text (D : Nat → Option Str) (V : Str → Option Nat) (j : Json) (h : Okay D V j) : JVal V (text D j) j := by
  match j with
  | .null => exact JVal.null
  | .bool true => exact JVal.true
  | .bool false => exact JVal.false
  | .num i => exact jval_num V i h
  | .dbl d =>
    obtain ⟨t, e, hv⟩ := h
    simp only [text, e, Option.getD_some]
    exact hv
  | .str s => exact JVal.str _ s (chars_text s)
  | .arr [] => exact JVal.arr0 [] Ws.nil
  | .arr (j :: l) => exact JVal.arr _ _ (jelems_text D V (j :: l) h (by simp))
  | .obj [] => exact JVal.obj0 [] Ws.nil
  | .obj (x :: l) => exact JVal.obj _ _ (jmembers_text D V (x :: l) h (by simp))
theorem jelems_text (D : Nat → Option Str) (V : Str → Option Nat) (l : List Json) (h : OkayL D V l) (hl : l ≠ []) :
    JElems V (textL D true l) l := by
  match l with
  | [] => exact absurd rfl hl
  | j :: [] =>
    have := JElems.one [] _ [] j Ws.nil (jval_text D V j h.1) Ws.nil
    simpa [textL] using this
  | j :: k :: l =>
    have := JElems.more [] _ [] j _ _ Ws.nil (jval_text D V j h.1) Ws.nil (jelems_text D V (k :: l) h.2 (by simp))
    rw [← textL_false D (k :: l) (by simp)] at this
    rw [textL]
    exact this
theorem jmembers_text (D : Nat → Option Str) (V : Str → Option Nat) (l : List (Str × Json)) (h : OkayM D V l) (hl : l ≠ []) :
    JMembers V (textM D true l) l := by
  match l with
  | [] => exact absurd rfl hl
  | (k, j) :: [] =>
    have := JMembers.one _ k _ [] j (key_text k) (jval_text D V j h.1) Ws.nil
    simpa [textM] using this
  | (k, j) :: x :: l =>
    have := JMembers.more _ k _ [] j _ _ (key_text k) (jval_text D V j h.1) Ws.nil (jmembers_text D V (x :: l) h.2 (by simp))
    rw [List.nil_append, ← textM_false D (x :: l) (by simp)] at this
    rw [textM]
    simpa using this
end

/-! ## The writer writes it -/

def goes (D : Nat → Option Str) : Ev → Prop
  | .dbl d => (D d).isSome = true
  | _ => True

theorem upTo_goes (D : Nat → Option Str) (l : List Ev) (h : ∀ e ∈ l, goes D e) : upTo D l = l := by
  induction l with
  | nil => rfl
  | cons e l ih =>
    have hl := ih (fun x hx => h x (by simp [hx]))
    have he := h e (by simp)
    cases e <;> first
      | (simp only [goes] at he; cases hd : (D ‹Nat›) <;> simp_all [upTo])
      | simp [upTo, hl]

mutual
theorem goes_events (D : Nat → Option Str) (V : Str → Option Nat) (j : Json) (h : Okay D V j) : ∀ e ∈ events j, goes D e := by
  match j with
  | .null => simp [events, goes]
  | .bool _ => simp [events, goes]
  | .num _ => simp [events, goes]
  | .dbl d =>
    obtain ⟨t, e, _⟩ := h
    simp [events, goes, e]
  | .str _ => simp [events, goes]
  | .arr l =>
    have := goes_eventsL D V l h
    intro e he
    simp only [events, List.mem_cons, List.mem_append, List.not_mem_nil, or_false] at he
    rcases he with rfl | he | rfl
    · trivial
    · exact this e he
    · trivial
  | .obj l =>
    have := goes_eventsM D V l h
    intro e he
    simp only [events, List.mem_cons, List.mem_append, List.not_mem_nil, or_false] at he
    rcases he with rfl | he | rfl
    · trivial
    · exact this e he
    · trivial
theorem goes_eventsL (D : Nat → Option Str) (V : Str → Option Nat) (l : List Json) (h : OkayL D V l) :
    ∀ e ∈ eventsL l, goes D e := by
  match l with
  | [] => simp [eventsL]
  | j :: l =>
    intro e he
    simp only [eventsL, List.mem_append] at he
    rcases he with he | he
    · exact goes_events D V j h.1 e he
    · exact goes_eventsL D V l h.2 e he
theorem goes_eventsM (D : Nat → Option Str) (V : Str → Option Nat) (l : List (Str × Json)) (h : OkayM D V l) :
    ∀ e ∈ eventsM l, goes D e := by
  match l with
  | [] => simp [eventsM]
  | (k, j) :: l =>
    intro e he
    simp only [eventsM, List.mem_cons, List.mem_append] at he
    rcases he with rfl | he | he
    · trivial
    · exact goes_events D V j h.1 e he
    · exact goes_eventsM D V l h.2 e he
end

/-- All calls for a document give its text, whether or not numbers are refused. -/
theorem run_doc (D : Nat → Option Str) (j : Json) : (run D {} (events j)).out = text D j ∧ (run D {} (events j)).bad = false := by
  have e := run_events D j {} rfl (by cases j <;> rfl)
  rw [e]
  cases j <;> exact ⟨rfl, rfl⟩

/-- C116, with all numbers: if the numbers that are not integers of 64 bits are written as texts of the number grammar
that denote them, the text written for the document reads back as the document. -/
theorem C116_doubles (D : Nat → Option Str) (V : Str → Option Nat) (j : Json) (h : Okay D V j) (room : Nat)
    (hd : depth j ≤ room) : write D j = text D j ∧ JText V (write D j) j ∧ parse V room (write D j) = .ok j [] := by
  have e : write D j = text D j := by
    unfold write
    rw [upTo_goes D _ (goes_events D V j h)]
    exact (run_doc D j).1
  have ht : JText V (write D j) j := by
    rw [e]
    exact ⟨[], _, [], [], by simp, Ws.nil, jval_text D V j h, Ws.nil, Or.inl rfl⟩
  exact ⟨e, ht, (C119 V room _ j).2 ⟨hd, ht⟩⟩

/-- Non-vacuity: the number with the code 7 is written as 0.25 and 1e300 has the code 8. -/
def exD : Nat → Option Str := fun d => if d = 7 then some "0.25".toList else if d = 8 then some "1e300".toList else none
def exV : Str → Option Nat := fun s => if s = "0.25".toList then some 7 else if s = "1e300".toList then some 8 else none

theorem exOkay : Okay exD exV (.arr [.dbl 7, .obj [("a".toList, .dbl 8)], .num 3]) := by
  refine ⟨⟨"0.25".toList, by decide +kernel, ?_⟩, ⟨⟨"1e300".toList, by decide +kernel, ?_⟩, trivial⟩,
    by simp only [Okay]; decide, trivial⟩
  · exact JVal.dbl false 0 ".25".toList [] 7 (Or.inr ⟨"25".toList, rfl, by decide, by decide⟩) (Or.inl rfl)
      (Or.inr (Or.inl (by decide))) (by decide +kernel)
  · exact JVal.dbl false 1 [] "e300".toList 8 (Or.inl rfl) (Or.inr ⟨'e', [], "300".toList, rfl, Or.inl rfl, Or.inl rfl, by decide, by decide⟩)
      (Or.inr (Or.inr (by decide))) (by decide +kernel)

example : write exD (.arr [.dbl 7, .obj [("a".toList, .dbl 8)], .num 3]) = "[0.25,{\"a\":1e300},3]".toList := by decide +kernel

end Verif.JsonText
