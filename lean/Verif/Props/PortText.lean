import Verif.Props.Ports
/-
C43: how the text of a port is read (`strtol` with base 0), in full.
-/
namespace Verif.Receiver
open Verif.Ipc

/-- The blanks of the C locale. -/
def blanks : List Char := [' ', '\t', '\n', Char.ofNat 11, Char.ofNat 12, '\r']

/-- `c` is the digit `d`, in lower or upper case. -/
def IsDigit (c : Char) (d : Nat) : Prop := "0123456789abcdef".toList[d]? = some c ∨ "0123456789ABCDEF".toList[d]? = some c

/-- `cs` writes the digits `ds` of a base. -/
def Writes (base : Nat) : Str → List Nat → Prop
  | [], [] => True
  | c :: cs, d :: ds => IsDigit c d ∧ d < base ∧ Writes base cs ds
  | _, _ => False

/-- Where the digits end. -/
def Ends (base : Nat) (s : Str) : Prop := ∀ c t d, s = c :: t → IsDigit c d → base ≤ d

/-- The number of some digits, the most significant first. -/
def number (base : Nat) (ds : List Nat) : Nat := ds.foldl (fun a d => a * base + d) 0

/-- How the base is chosen, and which texts after it are left to it. -/
inductive Intro : Str → Nat → Str → Prop
  | hex (c t d) : IsDigit c d → Intro ['0', 'x'] 16 (c :: t)
  | hexUpper (c t d) : IsDigit c d → Intro ['0', 'X'] 16 (c :: t)
  | oct (s) : (∀ t, s ≠ 'x' :: t) → (∀ t, s ≠ 'X' :: t) → Intro ['0'] 8 s
  | decimal (c t) : c ≠ '0' → c ≠ '-' → c ≠ '+' → c ∉ blanks → Intro [] 10 (c :: t)

theorem char_of (c : Char) (n : Nat) (h : c.toNat = n) : c = Char.ofNat n := by
  rw [← h, Char.ofNat_toNat]

theorem isSpace_iff (c : Char) : isSpace c = true ↔ c ∈ blanks := by
  constructor
  · intro h
    unfold isSpace at h
    rw [Bool.or_eq_true, Bool.and_eq_true, beq_iff_eq, decide_eq_true_eq, decide_eq_true_eq] at h
    rcases h with h | ⟨h1, h2⟩
    · subst h; decide
    · have : c.toNat = 9 ∨ c.toNat = 10 ∨ c.toNat = 11 ∨ c.toNat = 12 ∨ c.toNat = 13 := by omega
      rcases this with h | h | h | h | h <;> rw [char_of c _ h] <;> decide
  · have : ∀ c ∈ blanks, isSpace c = true := by decide
    exact this c

theorem digitVal_iff (c : Char) (d : Nat) : digitVal c = some d ↔ IsDigit c d := by
  constructor
  · intro h
    have key : ∀ n : Fin 128, ∀ d : Fin 16, digitVal (Char.ofNat n) = some d.val → IsDigit (Char.ofNat n) d.val := by
      unfold IsDigit; decide +kernel
    have hb : c.toNat < 128 ∧ d < 16 := by
      unfold digitVal at h
      dsimp only at h
      split at h
      · cases h; omega
      · split at h
        · cases h; omega
        · split at h
          · cases h; omega
          · cases h
    have := key ⟨c.toNat, hb.1⟩ ⟨d, hb.2⟩
    simp only [Char.ofNat_toNat] at this
    exact this h
  · intro h
    have key : ∀ d : Fin 16, (∀ c, "0123456789abcdef".toList[d.val]? = some c → digitVal c = some d.val) ∧
        ∀ c, "0123456789ABCDEF".toList[d.val]? = some c → digitVal c = some d.val := by
      intro d
      have k2 : ∀ d : Fin 16, ("0123456789abcdef".toList[d.val]?.map digitVal) = some (some d.val) ∧
        ("0123456789ABCDEF".toList[d.val]?.map digitVal) = some (some d.val) := by decide +kernel
      refine ⟨fun c hc => ?_, fun c hc => ?_⟩
      · have := (k2 d).1; rw [hc] at this; simpa using this
      · have := (k2 d).2; rw [hc] at this; simpa using this
    have hd : d < 16 := by
      rcases h with h | h
      · exact (List.getElem?_eq_some_iff.1 h).1
      · exact (List.getElem?_eq_some_iff.1 h).1
    rcases h with h | h
    · exact (key ⟨d, hd⟩).1 c h
    · exact (key ⟨d, hd⟩).2 c h

theorem digitsOf_writes (base : Nat) : ∀ (cs : Str) (ds : List Nat) (rest : Str) (acc : Nat), Writes base cs ds → Ends base rest →
    digitsOf base (cs ++ rest) acc = ds.foldl (fun a d => a * base + d) acc := by
  intro cs
  induction cs with
  | nil =>
    intro ds rest acc hw he
    cases ds with
    | cons d ds => exact hw.elim
    | nil =>
      cases rest with
      | nil => rfl
      | cons c t =>
        show digitsOf base (c :: t) acc = acc
        unfold digitsOf
        split
        · next d hd => rw [if_neg (Nat.not_lt.2 (he c t d rfl ((digitVal_iff c d).1 hd)))]
        · rfl
  | cons c cs ih =>
    intro ds rest acc hw he
    cases ds with
    | nil => exact hw.elim
    | cons d ds =>
      obtain ⟨h1, h2, h3⟩ := hw
      show digitsOf base (c :: (cs ++ rest)) acc = _
      unfold digitsOf
      rw [(digitVal_iff c d).2 h1]
      dsimp only
      rw [if_pos h2, ih ds rest _ h3 he, List.foldl_cons]

theorem magnitude_intro (pre : Str) (base : Nat) (s : Str) (h : Intro pre base s) : magnitude (pre ++ s) = digitsOf base s 0 := by
  cases h with
  | hex c t d hd =>
    show (if (digitVal c).isSome then digitsOf 16 (c :: t) 0 else 0) = _
    rw [(digitVal_iff c d).2 hd]; rfl
  | hexUpper c t d hd =>
    show (if (digitVal c).isSome then digitsOf 16 (c :: t) 0 else 0) = _
    rw [(digitVal_iff c d).2 hd]; rfl
  | oct _ h1 h2 =>
    show magnitude ('0' :: s) = _
    unfold magnitude
    split
    · next e => cases e; exact absurd rfl (h1 _)
    · next e => cases e; exact absurd rfl (h2 _)
    · next e => cases e; rfl
    · next e => exact absurd rfl (e s)
  | decimal c t h _ _ _ => exact magnitude_ne c t h

/-- The value within the range of `long`. -/
def clamp (i : Int) : Int := max (-(2 ^ 63)) (min (2 ^ 63 - 1) i)

theorem skip (bl : Str) (h : ∀ c ∈ bl, c ∈ blanks) (s : Str) (hs : ∀ c t, s = c :: t → c ∉ blanks) : (bl ++ s).dropWhile isSpace = s := by
  induction bl with
  | nil =>
    cases s with
    | nil => rfl
    | cons c t => exact List.dropWhile_cons_of_neg (fun h => hs c t rfl ((isSpace_iff c).1 h))
  | cons b bl ih =>
    rw [List.cons_append, List.dropWhile_cons_of_pos ((isSpace_iff b).2 (h b (by simp)))]
    exact ih (fun c hc => h c (by simp [hc]))

theorem intro_head (pre : Str) (base : Nat) (s : Str) (h : Intro pre base s) :
    ∃ c t, pre ++ s = c :: t ∧ c ≠ '-' ∧ c ≠ '+' ∧ c ∉ blanks := by
  cases h with
  | hex c t d hd => exact ⟨'0', _, rfl, by decide, by decide, by decide⟩
  | hexUpper c t d hd => exact ⟨'0', _, rfl, by decide, by decide, by decide⟩
  | oct _ h1 h2 => exact ⟨'0', _, rfl, by decide, by decide, by decide⟩
  | decimal c t h h1 h2 h3 => exact ⟨c, t, rfl, h1, h2, h3⟩

/-- What a text is read as: blanks are skipped; a sign; "0x", "0" or nothing chooses the base; digits of that base, up to the first character that is
none; the value is held within the range of a `long`. -/
theorem C43_reading (bl pre cs rest : Str) (base : Nat) (ds : List Nat) (hb : ∀ c ∈ bl, c ∈ blanks) (hi : Intro pre base (cs ++ rest))
    (hw : Writes base cs ds) (he : Ends base rest) :
    strtol (bl ++ (pre ++ (cs ++ rest))) = clamp (number base ds) ∧
    strtol (bl ++ '+' :: (pre ++ (cs ++ rest))) = clamp (number base ds) ∧
    strtol (bl ++ '-' :: (pre ++ (cs ++ rest))) = clamp (-(number base ds : Int)) := by
  have hm : magnitude (pre ++ (cs ++ rest)) = number base ds := by
    rw [magnitude_intro pre base _ hi, digitsOf_writes base cs ds rest 0 hw he]; rfl
  obtain ⟨c, t, e, h1, h2, h3⟩ := intro_head pre base _ hi
  refine ⟨?_, ?_, ?_⟩
  · unfold strtol
    rw [skip bl hb _ (fun c' t' e' => by rw [e] at e'; cases e'; exact h3)]
    split
    · next s e' => rw [e] at e'; cases e'; exact absurd rfl h1
    · next s e' => rw [e] at e'; cases e'; exact absurd rfl h2
    · rw [hm]; unfold clamp; split <;> omega
  · unfold strtol
    rw [skip bl hb _ (fun c' t' e' => by cases e'; decide)]
    show (if magnitude (pre ++ (cs ++ rest)) > 9223372036854775807 then (9223372036854775807 : Int) else magnitude (pre ++ (cs ++ rest))) = _
    rw [hm]; unfold clamp; split <;> omega
  · unfold strtol
    rw [skip bl hb _ (fun c' t' e' => by cases e'; decide)]
    show (if magnitude (pre ++ (cs ++ rest)) > 9223372036854775808 then (-9223372036854775808 : Int) else -(magnitude (pre ++ (cs ++ rest)) : Int)) = _
    rw [hm]; unfold clamp; split <;> omega

/-- Non-vacuity: port 8080 in hexadecimal, after a blank and before another character. -/
example : Intro "0x".toList 16 ("1F90".toList ++ ['h']) ∧ Writes 16 "1F90".toList [1, 15, 9, 0] ∧ Ends 16 ['h'] ∧ number 16 [1, 15, 9, 0] = 8080 := by
  refine ⟨.hex '1' _ 1 (Or.inl rfl), ?_, ?_, by decide⟩
  · exact ⟨Or.inl rfl, by decide, Or.inr rfl, by decide, Or.inl rfl, by decide, Or.inl rfl, by decide, trivial⟩
  · intro c t d e hd
    cases e
    have := (digitVal_iff _ _).2 hd
    rw [show digitVal 'h' = none by decide +kernel] at this
    cases this

end Verif.Receiver
