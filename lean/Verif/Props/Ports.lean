import Verif.Model.Receiver

/-!
C43: the port list reported by the receiver, configured again, gives the same ports.
-/
namespace Verif.Receiver
open Verif.Ipc

/-- Ports that can be opened. -/
def Ports (l : List Nat) : Prop := ∀ p ∈ l, 0 < p ∧ p < 65536

/-- The full claim: for every port list the receiver can hold, the list is reported and reads back. -/
def C43_statement : Prop := ∀ s : Str, ∃ t, portText (tokenize s) = some t ∧ tokenize t = tokenize s

/-! ## Digits -/

theorem digitVal_digitChar (d : Nat) (h : d < 10) : digitVal (digitChar d) = some d := by
  have : ∀ d : Fin 10, digitVal (digitChar d.val) = some d.val := by decide +kernel
  exact this ⟨d, h⟩

theorem digitChar_ne (d : Nat) (h : d < 10) :
    digitChar d ≠ ',' ∧ digitChar d ≠ '-' ∧ digitChar d ≠ '+' ∧ isSpace (digitChar d) = false ∧
      (digitChar d = '0' → d = 0) := by
  have : ∀ d : Fin 10, digitChar d.val ≠ ',' ∧ digitChar d.val ≠ '-' ∧ digitChar d.val ≠ '+' ∧
      isSpace (digitChar d.val) = false ∧ (digitChar d.val = '0' → d.val = 0) := by decide +kernel
  exact this ⟨d, h⟩

theorem digitsF_lt (f n : Nat) : ∀ d ∈ digitsF f n, d < 10 := by
  induction f generalizing n with
  | zero => simp [digitsF]
  | succ f ih =>
    intro d hd
    unfold digitsF at hd
    split at hd
    · simp at hd; omega
    · rcases List.mem_append.1 hd with hd | hd
      · exact ih _ d hd
      · simp at hd; omega

theorem digitsF_val (f n : Nat) (h : n < f) : (digitsF f n).foldl (fun a d => a * 10 + d) 0 = n := by
  induction f generalizing n with
  | zero => omega
  | succ f ih =>
    unfold digitsF
    split
    · simp
    · rw [List.foldl_append, ih (n / 10) (by omega)]
      simp only [List.foldl_cons, List.foldl_nil]
      omega

theorem digitsF_head (f n : Nat) (h : n < f) (h0 : 0 < n) : ∃ d l, digitsF f n = d :: l ∧ d ≠ 0 := by
  induction f generalizing n with
  | zero => omega
  | succ f ih =>
    unfold digitsF
    split
    · exact ⟨n, [], rfl, by omega⟩
    · obtain ⟨d, l, e, hd⟩ := ih (n / 10) (by omega) (by omega)
      exact ⟨d, l ++ [n % 10], by rw [e]; rfl, hd⟩

theorem digitsOf_map (l : List Nat) (h : ∀ d ∈ l, d < 10) (acc : Nat) :
    digitsOf 10 (l.map digitChar) acc = l.foldl (fun a d => a * 10 + d) acc := by
  induction l generalizing acc with
  | nil => rfl
  | cons d l ih =>
    have hd := h d (by simp)
    simp only [List.map_cons, digitsOf, digitVal_digitChar d hd, if_pos hd, List.foldl_cons]
    exact ih (fun x hx => h x (by simp [hx])) _

theorem magnitude_ne (c : Char) (s : Str) (h : c ≠ '0') : magnitude (c :: s) = digitsOf 10 (c :: s) 0 := by
  unfold magnitude
  split
  · next e => cases e; exact absurd rfl h
  · next e => cases e; exact absurd rfl h
  · next e => cases e; exact absurd rfl h
  · rfl

theorem strtol_dec (n : Nat) (h0 : 0 < n) (h : n < 65536) : strtol (dec n) = n := by
  obtain ⟨d, l, e, hd⟩ := digitsF_head (n + 1) n (by omega) h0
  have hlt := digitsF_lt (n + 1) n
  have hd10 : d < 10 := hlt d (by rw [e]; simp)
  obtain ⟨_, h2, h3, h4, h5⟩ := digitChar_ne d hd10
  have hm : magnitude (dec n) = n := by
    have : dec n = digitChar d :: l.map digitChar := by simp [dec, e]
    rw [this, magnitude_ne _ _ (fun e => hd (h5 e)), ← this]
    show digitsOf 10 ((digitsF (n + 1) n).map digitChar) 0 = n
    rw [digitsOf_map _ hlt, digitsF_val _ _ (by omega)]
  have hc : dec n = digitChar d :: l.map digitChar := by simp [dec, e]
  unfold strtol
  have hw : (dec n).dropWhile isSpace = dec n := by
    rw [hc, List.dropWhile_cons_of_neg (by simp [h4])]
  rw [hw]
  split
  · next s e => rw [hc] at e; exact absurd (List.cons.inj e).1 h2
  · next s e => rw [hc] at e; exact absurd (List.cons.inj e).1 h3
  · rw [hm, if_neg (by omega)]

theorem dec_comma (n : Nat) : ',' ∉ dec n := by
  intro h
  obtain ⟨d, hd, e⟩ := List.mem_map.1 h
  exact (digitChar_ne d (digitsF_lt _ _ d hd)).1 e

/-! ## Lists -/

theorem splitComma_plain (k : Str) (h : ',' ∉ k) : splitComma k = [k] := by
  induction k with
  | nil => rfl
  | cons c k ih =>
    have h1 : c ≠ ',' := fun e => h (by simp [e])
    have h2 : ',' ∉ k := fun e => h (by simp [e])
    simp [splitComma, h1, ih h2]

theorem splitComma_cons (k s : Str) (h : ',' ∉ k) : splitComma (k ++ ',' :: s) = k :: splitComma s := by
  induction k with
  | nil => simp [splitComma]
  | cons c k ih =>
    have h1 : c ≠ ',' := fun e => h (by simp [e])
    have h2 : ',' ∉ k := fun e => h (by simp [e])
    simp [splitComma, h1, ih h2]

theorem flat_eq (p : Nat) (ps : List Nat) :
    (p :: ps).flatMap (fun p => dec p ++ [',']) = (dec p ++ ps.flatMap (fun q => ',' :: dec q)) ++ [','] := by
  induction ps generalizing p with
  | nil => simp
  | cons q ps ih =>
    rw [List.flatMap_cons, ih q]
    simp

theorem portText_cons (p : Nat) (ps : List Nat) :
    portText (p :: ps) = some (dec p ++ ps.flatMap (fun q => ',' :: dec q)) := by
  unfold portText
  simp only [flat_eq]
  rw [if_neg (by simp), List.dropLast_concat]

theorem split_text (p : Nat) (ps : List Nat) :
    splitComma (dec p ++ ps.flatMap (fun q => ',' :: dec q)) = dec p :: ps.map dec := by
  induction ps generalizing p with
  | nil => simp [splitComma_plain _ (dec_comma p)]
  | cons q ps ih =>
    rw [List.flatMap_cons, List.cons_append, splitComma_cons _ _ (dec_comma p), ih q]
    rfl

theorem toPort_nat (n : Nat) (h : n < 65536) : toPort n = n := by
  unfold toPort
  omega

/-- The list of any ports that can be opened is reported, and the report reads back as the same list. -/
theorem C43_partial (l : List Nat) (h0 : l ≠ []) (h : Ports l) : ∃ t, portText l = some t ∧ tokenize t = l := by
  cases l with
  | nil => exact absurd rfl h0
  | cons p ps =>
    refine ⟨_, portText_cons p ps, ?_⟩
    unfold tokenize
    rw [split_text]
    have : ∀ l : List Nat, Ports l → ((l.map dec).map (fun t => toPort (strtol t))).filter (· != 0) = l := by
      intro l hl
      induction l with
      | nil => rfl
      | cons q l ih =>
        have hq := hl q (by simp)
        simp only [List.map_cons]
        rw [strtol_dec q hq.1 hq.2, toPort_nat q hq.2, List.filter_cons_of_pos (by simp; omega),
          ih (fun x hx => hl x (by simp [hx]))]
    exact this (p :: ps) h

/-- Whatever the text, only ports that can be opened are configured. -/
theorem C43_range (s : Str) : Ports (tokenize s) := by
  intro p hp
  unfold tokenize at hp
  obtain ⟨hp, h0⟩ := List.mem_filter.1 hp
  obtain ⟨t, _, e⟩ := List.mem_map.1 hp
  have : p ≠ 0 := by simpa using h0
  refine ⟨by omega, ?_⟩
  rw [← e]
  unfold toPort
  omega

/-- A text without a valid port gives an empty list; reporting it throws. -/
theorem C43_violated : ¬ C43_statement := by
  intro h
  obtain ⟨t, e, _⟩ := h "0".toList
  have : portText (tokenize "0".toList) = none := by decide +kernel
  rw [this] at e
  cases e

/-- Exactly the empty list cannot be reported. -/
theorem C43_empty (l : List Nat) : portText l = none ↔ l = [] := by
  constructor
  · intro h
    cases l with
    | nil => rfl
    | cons p ps => rw [portText_cons] at h; cases h
  · rintro rfl; rfl

/-- Texts are read as by `strtol` with base 0: hexadecimal, octal, sign and blanks; excess bits are cut off silently. -/
example : tokenize "0x1F90, 8081,010,-1,65537,abc,,70000x".toList = [8080, 8081, 8, 65535, 1, 4464] := by decide +kernel

example : Ports [8989, 8990] ∧ portText [8989, 8990] = some "8989,8990".toList := by
  refine ⟨by intro p hp; simp at hp; omega, by decide +kernel⟩

end Verif.Receiver
