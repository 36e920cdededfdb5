import Verif.Model.Timestamp
import Verif.Props.IpcText

/-
C194: Time stamps of messages: what is written is read back, and what is no time is refused.
-/
namespace Verif.Timestamp
open Verif.Ipc (Str)

/-! ### The calendar -/

theorem ranges (a b c d e m : Nat) (hb : b = (4 * a + 3) / 146097) (hc : c = a - (146097 * b) / 4)
    (hd : d = (4 * c + 3) / 1461) (he : e = c - (1461 * d) / 4) (hm : m = (5 * e + 2) / 153) :
    c ≤ 36524 ∧ d ≤ 99 ∧ e ≤ 365 ∧ m ≤ 11 ∧ (146097 * b) / 4 + c = a ∧ (1461 * d) / 4 + e = c := by
  have c1 : c ≤ 36524 := by omega
  have d1 : d ≤ 99 := by omega
  have e1 : e ≤ 365 := by omega
  have m1 : m ≤ 11 := by omega
  exact ⟨c1, d1, e1, m1, by omega, by omega⟩

theorem shift_month (m : Nat) (h : m ≤ 11) : (14 - (m + 3 - 12 * (m / 10))) / 12 = m / 10 ∧
    m + 3 - 12 * (m / 10) + 12 * (m / 10) - 3 = m := by omega

theorem century (b d : Nat) (h : d ≤ 99) : (100 * b + d) / 4 = 25 * b + d / 4 ∧ (100 * b + d) / 100 = b ∧
    (100 * b + d) / 400 = b / 4 := by omega

theorem back (n a b c d e m : Nat) (ha : a = n + 32044) (hb : b = (4 * a + 3) / 146097) (hc : c = a - (146097 * b) / 4)
    (hd : d = (4 * c + 3) / 1461) (he : e = c - (1461 * d) / 4) (hm : m = (5 * e + 2) / 153) (hy : 4800 ≤ 100 * b + d) :
    dayNumber ⟨100 * b + d - 4800 + m / 10, m + 3 - 12 * (m / 10), e - (153 * m + 2) / 5 + 1⟩ = n := by
  obtain ⟨c1, d1, e1, m1, s1, s2⟩ := ranges a b c d e m hb hc hd he hm
  obtain ⟨t1, t2⟩ := shift_month m m1
  obtain ⟨y1, y2, y3⟩ := century b d d1
  unfold dayNumber
  dsimp only
  rw [t1, t2]
  have hy' : 100 * b + d - 4800 + m / 10 + 4800 - m / 10 = 100 * b + d := by omega
  rw [hy', y1, y2, y3]
  have hq : (153 * m + 2) / 5 ≤ e := by omega
  generalize (153 * m + 2) / 5 = q at hq ⊢
  have f1 : (146097 * b) / 4 = 36524 * b + b / 4 := by omega
  have f2 : (1461 * d) / 4 = 365 * d + d / 4 := by omega
  rw [f1] at s1
  rw [f2] at s2
  clear f1 f2 hb hc hd he hm y1 y2 y3 t1 t2 hy' c1 d1 e1 m1
  omega

/-- The lengths of the months, counted from March; only the last of them depends on the year. -/
theorem month_day (e m : Nat) (hm : m = (5 * e + 2) / 153) (he : e ≤ 365) :
    1 ≤ m + 3 - 12 * (m / 10) ∧ m + 3 - 12 * (m / 10) ≤ 12 ∧
    e - (153 * m + 2) / 5 + 1 ≤ (if m = 11 then 29 else if m = 1 ∨ m = 3 ∨ m = 6 ∨ m = 8 then 30 else 31) ∧
    (m = 11 → e - (153 * m + 2) / 5 + 1 = 29 → e = 365) := by
  have : m = 0 ∨ m = 1 ∨ m = 2 ∨ m = 3 ∨ m = 4 ∨ m = 5 ∨ m = 6 ∨ m = 7 ∨ m = 8 ∨ m = 9 ∨ m = 10 ∨ m = 11 := by omega
  rcases this with h | h | h | h | h | h | h | h | h | h | h | h <;> subst h <;> simp <;> omega

theorem four_centuries (b : Nat) : (146097 * b) / 4 = 36524 * b + b / 4 := by omega
theorem four_years (d : Nat) : (1461 * d) / 4 = 365 * d + d / 4 := by omega

theorem last_century (b q a : Nat) (h1 : 36524 * b + q + 36524 = a) (h2 : 4 * a + 3 < 146097 * b + 146097) (hq : q = b / 4) :
    b % 4 = 3 := by
  subst h1
  omega

theorem last_year (d q c : Nat) (h1 : 365 * d + q + 365 = c) (h2 : 4 * c + 3 < 1461 * d + 1461) (hq : q = d / 4) : d % 4 = 3 := by
  subst h1
  omega

theorem below (x y k : Nat) (hk : 0 < k) (h : y = x / k) : x < k * y + k := by
  have := Nat.lt_mul_div_succ x hk
  rw [← h] at this
  rw [Nat.mul_add, Nat.mul_one] at this
  exact this

theorem leap_year (b d y : Nat) (d4 : d % 4 = 3) (d1 : d ≤ 99) (hb4 : d = 99 → b % 4 = 3) (hy : 4800 ≤ 100 * b + d)
    (hY : 100 * b + d - 4800 + 1 = y) : leap y = true := by
  have y4 : y % 4 = 0 := by omega
  have y100 : y % 100 = 0 → y % 400 = 0 := by
    intro h0
    have h99 : d = 99 := by omega
    have := hb4 h99
    omega
  unfold leap
  by_cases h0 : y % 100 = 0
  · simp [y4, h0, y100 h0]
  · simp [y4, h0]

/-- The 366th day of a year that begins in March is in a leap year. -/
theorem leap_day (a b c d e : Nat) (hb : b = (4 * a + 3) / 146097) (hc : c = a - (146097 * b) / 4)
    (hd : d = (4 * c + 3) / 1461) (he : e = c - (1461 * d) / 4) (h : e = 365) (hy : 4800 ≤ 100 * b + d) :
    leap (100 * b + d - 4800 + 1) = true := by
  obtain ⟨c1, d1, _, _, s1, s2⟩ := ranges a b c d e _ hb hc hd he rfl
  rw [four_centuries] at s1
  rw [four_years, h] at s2
  refine leap_year b d _ (last_year d _ c s2 (below _ _ 1461 (by decide) hd) rfl) d1 ?_ hy rfl
  intro h99
  have hc9 : c = 36524 := by subst h99; clear hb hc hd he s1 hy; omega
  rw [hc9] at s1
  exact last_century b _ a s1 (below _ _ 146097 (by decide) hb) rfl

/-- What is needed of a date: it has its number, and boost takes it for a date. -/
theorem calendar (n : Nat) (h : 1400 ≤ (fromDayNumber n).year) (h' : (fromDayNumber n).year ≤ 9999) :
    dayNumber (fromDayNumber n) = n ∧ (fromDayNumber n).ok = true := by
  obtain ⟨a, ha⟩ : ∃ a, a = n + 32044 := ⟨_, rfl⟩
  obtain ⟨b, hb⟩ : ∃ b, b = (4 * a + 3) / 146097 := ⟨_, rfl⟩
  obtain ⟨c, hc⟩ : ∃ c, c = a - (146097 * b) / 4 := ⟨_, rfl⟩
  obtain ⟨d, hd⟩ : ∃ d, d = (4 * c + 3) / 1461 := ⟨_, rfl⟩
  obtain ⟨e, he⟩ : ∃ e, e = c - (1461 * d) / 4 := ⟨_, rfl⟩
  obtain ⟨m, hm⟩ : ∃ m, m = (5 * e + 2) / 153 := ⟨_, rfl⟩
  have hf : fromDayNumber n = ⟨100 * b + d - 4800 + m / 10, m + 3 - 12 * (m / 10), e - (153 * m + 2) / 5 + 1⟩ := by
    unfold fromDayNumber
    dsimp only
    rw [← ha, ← hb, ← hc, ← hd, ← he, ← hm]
  rw [hf] at h h' ⊢
  have h1 : 1400 ≤ 100 * b + d - 4800 + m / 10 := h
  have h2 : 100 * b + d - 4800 + m / 10 ≤ 9999 := h'
  obtain ⟨c1, d1, e1, m1, s1, s2⟩ := ranges a b c d e m hb hc hd he hm
  have hy : 4800 ≤ 100 * b + d := by omega
  refine ⟨back n a b c d e m ha hb hc hd he hm hy, ?_⟩
  obtain ⟨g1, g2, g3, g4⟩ := month_day e m hm e1
  have hl := leap_day a b c d e hb hc hd he
  clear hb hc hd he s1 s2 ha hf h h'
  have hday : e - (153 * m + 2) / 5 + 1 ≤ lastDay (100 * b + d - 4800 + m / 10) (m + 3 - 12 * (m / 10)) := by
    unfold lastDay
    by_cases h11 : m = 11
    · rw [if_pos (by omega)]
      rw [if_pos h11] at g3
      by_cases h29 : e - (153 * m + 2) / 5 + 1 = 29
      · have hlp := hl (g4 h11 h29) hy
        have : m / 10 = 1 := by omega
        rw [this, if_pos hlp, h29]
        exact Nat.le_refl _
      · split <;> omega
    · rw [if_neg h11] at g3
      rw [if_neg (by omega)]
      by_cases h30 : m = 1 ∨ m = 3 ∨ m = 6 ∨ m = 8
      · rw [if_pos h30] at g3
        split <;> omega
      · rw [if_neg h30] at g3
        rw [if_neg (by omega)]
        exact g3
  unfold Date.ok
  simp only [Bool.and_eq_true, decide_eq_true_eq]
  exact ⟨⟨⟨⟨⟨h1, h2⟩, g1⟩, g2⟩, by omega⟩, hday⟩

/-! ### Digits and separators -/

def seps : List Char := [',', '-', '.', ' ', '/', ':', 'T', '+']

theorem dig_facts (n : Nat) (h : n < 10) : dig n ∉ seps ∧ ('0' ≤ dig n ∧ dig n ≤ '9') ∧ (dig n).toNat - 48 = n := by
  have : n = 0 ∨ n = 1 ∨ n = 2 ∨ n = 3 ∨ n = 4 ∨ n = 5 ∨ n = 6 ∨ n = 7 ∨ n = 8 ∨ n = 9 := by omega
  rcases this with h | h | h | h | h | h | h | h | h | h <;> subst h <;> decide

/-- A text of digits with a value. -/
def Num (w : Str) (n : Nat) : Prop := w ≠ [] ∧ (∀ c ∈ w, c ∉ seps ∧ '0' ≤ c ∧ c ≤ '9') ∧ digits w 0 = some n

theorem digits_append (u w : Str) : ∀ k, digits (u ++ w) k = (digits u k).bind fun n => digits w n := by
  induction u with
  | nil => intro k; rfl
  | cons c u ih =>
    intro k
    rw [List.cons_append, digits, digits]
    split
    · exact ih _
    · rfl

theorem digits_two (n k : Nat) (h : n < 100) : digits (pad2 n) k = some (100 * k + n) := by
  obtain ⟨_, a1, a2⟩ := dig_facts (n / 10) (by omega)
  obtain ⟨_, b1, b2⟩ := dig_facts (n % 10) (by omega)
  rw [pad2, digits, if_pos a1, digits, if_pos b1, digits, a2, b2]
  congr 1
  omega

theorem pad2_mem (n : Nat) (h : n < 100) : ∀ c ∈ pad2 n, c ∉ seps ∧ '0' ≤ c ∧ c ≤ '9' := by
  intro c hc
  obtain ⟨a0, a1, _⟩ := dig_facts (n / 10) (by omega)
  obtain ⟨b0, b1, _⟩ := dig_facts (n % 10) (by omega)
  simp only [pad2, List.mem_cons, List.not_mem_nil, or_false] at hc
  rcases hc with rfl | rfl
  · exact ⟨a0, a1⟩
  · exact ⟨b0, b1⟩

theorem num2 (n : Nat) (h : n < 100) : Num (pad2 n) n :=
  ⟨by simp [pad2], pad2_mem n h, by rw [digits_two n 0 h]; simp⟩

theorem num4 (n : Nat) (h : n < 10000) : Num (pad4 n) n := by
  refine ⟨by simp [pad4, pad2], ?_, ?_⟩
  · intro c hc
    rcases List.mem_append.1 hc with hc | hc
    · exact pad2_mem _ (by omega) c hc
    · exact pad2_mem _ (by omega) c hc
  · rw [pad4, digits_append, digits_two _ _ (by omega), Option.bind_some, digits_two _ _ (by omega)]
    congr 1
    omega

theorem num6 (n : Nat) (h : n < 1000000) : Num (pad6 n) n := by
  refine ⟨by simp [pad6, pad2], ?_, ?_⟩
  · intro c hc
    rcases List.mem_append.1 hc with hc | hc
    · exact pad2_mem _ (by omega) c hc
    · exact (num4 _ (by omega)).2.1 c hc
  · rw [pad6, digits_append, digits_two _ _ (by omega), Option.bind_some, pad4, digits_append, digits_two _ _ (by omega),
      Option.bind_some, digits_two _ _ (by omega)]
    congr 1
    omega

theorem num_number (w : Str) (n max : Nat) (h : Num w n) (hm : n ≤ max) : number max w = some n := by
  obtain ⟨h1, h2, h3⟩ := h
  unfold number
  have : w.head? ≠ some '+' := by
    intro hp
    have hm : '+' ∈ w := List.mem_of_head? hp
    exact (h2 _ hm).1 (by decide)
  rw [if_neg this]
  dsimp only
  rw [if_neg h1, h3, Option.bind_some, if_pos hm]

theorem num_month (w : Str) (n : Nat) (h : Num w n) (hm : n ≤ 65535) : monthOf w = some n := by
  cases w with
  | nil => exact absurd rfl h.1
  | cons c w =>
    rw [monthOf, if_pos (h.2.1 c (List.mem_cons_self ..)).2]
    exact num_number _ n _ h hm

theorem tokens_word (sep : List Char) (hs : ∀ c ∈ sep, c ∈ seps) (w rest : Str) (h : ∀ c ∈ w, c ∉ seps ∧ '0' ≤ c ∧ c ≤ '9') :
    ∀ acc, tokens sep (w ++ rest) acc = tokens sep rest (acc ++ w) := by
  induction w with
  | nil => intro acc; rw [List.nil_append, List.append_nil]
  | cons c w ih =>
    intro acc
    rw [List.cons_append, tokens, if_neg (fun hc => (h c (List.mem_cons_self ..)).1 (hs c hc)),
      ih (fun x hx => h x (List.mem_cons_of_mem _ hx)), List.append_assoc]
    rfl

theorem tokens_sep (sep : List Char) (hs : ∀ c ∈ sep, c ∈ seps) (w rest : Str) (n : Nat) (c : Char) (h : Num w n) (hc : c ∈ sep) :
    tokens sep (w ++ c :: rest) [] = w :: tokens sep rest [] := by
  rw [tokens_word sep hs w _ h.2.1, List.nil_append, tokens, if_pos hc, if_neg h.1]

theorem tokens_end (sep : List Char) (hs : ∀ c ∈ sep, c ∈ seps) (w : Str) (n : Nat) (h : Num w n) : tokens sep w [] = [w] := by
  have := tokens_word sep hs w [] h.2.1 []
  rw [List.append_nil, List.nil_append] at this
  rw [this, tokens, if_neg h.1]

theorem split_at (w rest : Str) (h : 'T' ∉ w) : split 'T' (w ++ 'T' :: rest) = (w, rest) := by
  induction w with
  | nil => rw [List.nil_append, split, if_pos rfl]
  | cons c w ih =>
    rw [List.cons_append, split, if_neg (by rintro rfl; exact h (List.mem_cons_self ..)), ih (fun hm => h (List.mem_cons_of_mem _ hm))]

/-! ### Reading what was written -/

theorem read_date (d : Date) (h : d.ok = true) :
    readDate (pad4 d.year ++ '-' :: (pad2 d.month ++ '-' :: pad2 d.day)) = some d := by
  have hd := h
  simp only [Date.ok, Bool.and_eq_true, decide_eq_true_eq] at hd
  obtain ⟨⟨⟨⟨⟨_, y2⟩, _⟩, m2⟩, _⟩, d2⟩ := hd
  have hl : lastDay d.year d.month ≤ 31 := by unfold lastDay; (repeat' split) <;> omega
  have n1 := num4 d.year (by omega)
  have n2 := num2 d.month (by omega)
  have n3 := num2 d.day (by omega)
  unfold readDate
  rw [tokens_sep _ (by decide) _ _ _ '-' n1 (by decide), part, num_number _ _ _ n1 (by omega)]
  simp only [Option.map_some, Option.bind_some]
  rw [tokens_sep _ (by decide) _ _ _ '-' n2 (by decide), part, num_month _ _ n2 (by omega)]
  simp only [Option.map_some, Option.bind_some]
  rw [tokens_end _ (by decide) _ _ n3, part, num_number _ _ _ n3 (by omega)]
  simp only [Option.map_some, Option.bind_some]
  exact if_pos h

theorem read_clock (us : Nat) (h : us < 86400000000) : readClock (clock us) = some (us : Int) := by
  have n1 := num2 (us / 3600000000) (by omega)
  have n2 := num2 (us / 60000000 % 60) (by omega)
  have n3 := num2 (us / 1000000 % 60) (by omega)
  have hsum : (us / 3600000000 * 3600 + us / 60000000 % 60 * 60 + us / 1000000 % 60) * 1000000 + us % 1000000 = us := by omega
  have hm : ∃ c r, clock us = c :: r ∧ c ≠ '-' := by
    refine ⟨dig (us / 3600000000 / 10), _, rfl, ?_⟩
    intro hc
    have := (dig_facts (us / 3600000000 / 10) (by omega)).1
    rw [hc] at this
    exact this (by decide)
  obtain ⟨c, r, hcr, hne⟩ := hm
  have ht : tokens ['-', ':', ',', '.'] (clock us) [] =
      pad2 (us / 3600000000) :: pad2 (us / 60000000 % 60) :: pad2 (us / 1000000 % 60) ::
        (if us % 1000000 = 0 then [] else [pad6 (us % 1000000)]) := by
    unfold clock
    rw [tokens_sep _ (by decide) _ _ _ ':' n1 (by decide), tokens_sep _ (by decide) _ _ _ ':' n2 (by decide)]
    unfold fraction
    by_cases h0 : us % 1000000 = 0
    · rw [if_pos h0, if_pos h0, List.append_nil, tokens_end _ (by decide) _ _ n3]
    · rw [if_neg h0, if_neg h0, tokens_sep _ (by decide) _ _ _ '.' n3 (by decide),
        tokens_end _ (by decide) _ _ (num6 (us % 1000000) (by omega))]
  have hlast : part readFraction (if us % 1000000 = 0 then [] else [pad6 (us % 1000000)]) = some (us % 1000000, []) := by
    by_cases h0 : us % 1000000 = 0
    · rw [if_pos h0, h0]; rfl
    · rw [if_neg h0, part]
      have hr : readFraction (pad6 (us % 1000000)) = some (us % 1000000) := by
        unfold readFraction
        rw [if_pos (by simp [pad6, pad4, pad2]), List.take_of_length_le (by simp [pad6, pad4, pad2])]
        exact num_number _ _ _ (num6 _ (by omega)) (by omega)
      rw [hr]; rfl
  unfold readClock
  rw [ht, part, num_number _ _ _ n1 (by omega)]
  simp only [Option.map_some, Option.bind_some]
  rw [part, num_number _ _ _ n2 (by omega)]
  simp only [Option.map_some, Option.bind_some]
  rw [part, num_number _ _ _ n3 (by omega)]
  simp only [Option.map_some, Option.bind_some]
  rw [hlast]
  simp only [Option.map_some]
  rw [hcr]
  dsimp only
  rw [if_neg hne, hsum]

/-! ### C194 -/

theorem add_day (t : Nat) : some (((t / 86400000000 * dayUs : Nat) : Int) + ((t % 86400000000 : Nat) : Int)) = some (t : Int) := by
  have h : t / 86400000000 * dayUs + t % 86400000000 = t := by
    have := Nat.div_add_mod t 86400000000
    rw [Nat.mul_comm] at this
    exact this
  rw [← Int.natCast_add, h]

theorem no_T (w : Str) (h : ∀ c ∈ w, c ∉ seps ∧ '0' ≤ c ∧ c ≤ '9') : 'T' ∉ w := fun hm => (h _ hm).1 (by decide)

/-- What is written for a time in the years 1400 to 9999 is read as that time, to the microsecond. -/
theorem C194_partial (t : Nat) (h1 : 1400 ≤ (fromDayNumber (t / 86400000000)).year)
    (h2 : (fromDayNumber (t / 86400000000)).year ≤ 9999) : parse (text t) = some (t : Int) := by
  obtain ⟨hc, hok⟩ := calendar _ h1 h2
  have hd := read_date _ hok
  have hk := read_clock (t % 86400000000) (Nat.mod_lt _ (by decide))
  have hb := hok
  simp only [Date.ok, Bool.and_eq_true, decide_eq_true_eq] at hb
  obtain ⟨⟨⟨⟨_, _⟩, m2⟩, _⟩, d2⟩ := hb
  generalize hdd : fromDayNumber (t / 86400000000) = d at *
  have hl : lastDay d.year d.month ≤ 31 := by unfold lastDay; (repeat' split) <;> omega
  have n1 := no_T _ (num4 d.year (by omega)).2.1
  have n2 := no_T _ (num2 d.month (by omega)).2.1
  have n3 := no_T _ (num2 d.day (by omega)).2.1
  have ht : text t = (pad4 d.year ++ '-' :: (pad2 d.month ++ '-' :: pad2 d.day)) ++ 'T' :: clock (t % 86400000000) := by
    unfold text dayUs
    rw [hdd]
    simp only [List.append_assoc, List.cons_append]
  have hs : split 'T' (text t) = (pad4 d.year ++ '-' :: (pad2 d.month ++ '-' :: pad2 d.day), clock (t % 86400000000)) := by
    rw [ht]
    refine split_at _ _ ?_
    simp only [List.mem_append, List.mem_cons, not_or]
    exact ⟨n1, by decide, n2, by decide, n3⟩
  unfold parse
  rw [hs]
  dsimp only
  rw [hd, Option.bind_some, hk, Option.map_some, hc]
  rw [add_day]

/-- Two times of these years with the same text are the same time. -/
theorem C194_distinct (t u : Nat) (h1 : 1400 ≤ (fromDayNumber (t / 86400000000)).year)
    (h2 : (fromDayNumber (t / 86400000000)).year ≤ 9999) (h3 : 1400 ≤ (fromDayNumber (u / 86400000000)).year)
    (h4 : (fromDayNumber (u / 86400000000)).year ≤ 9999) (h : text t = text u) : t = u := by
  have a := C194_partial t h1 h2
  have b := C194_partial u h3 h4
  rw [h, b] at a
  have := Option.some.inj a
  omega

/-- C62 and C118 with boost's texts, without an assumption about time stamps: a message made in the years 1400 to 9999
is received as it was sent. -/
theorem C194_messages (D : Nat → Option Str) (V : Str → Option Nat) (m : Ipc.Msg) (id t : Nat) (ps : List (Str × Ipc.Json))
    (h1 : 1400 ≤ (fromDayNumber (t / 86400000000)).year) (h9 : (fromDayNumber (t / 86400000000)).year ≤ 9999)
    (ht : m.type ≠ .illegal) (hv : m.val ≠ .illegal)
    (hid : m.id = some id) (hr : id < 4294967296) (htime : m.time = some t) (hp : m.params = some (.obj ps))
    (hf : JsonText.FitsM m.doc) (room : Nat) (hd : JsonText.depth (.obj m.doc) ≤ room) (h2 : 2 ≤ room) :
    ∃ s m', JsonText.encodeText D times m = some s ∧ '\x00' ∉ s ∧ JsonText.decodeText V room times true s = .msg m' ∧
      m'.type = m.type ∧ m'.val = m.val ∧ m'.id = m.id ∧ m'.time = m.time ∧ m'.params = m.params ∧
      ∀ k, k ∉ ["msg_type", "msg_val", "id", "timestamp"].map String.toList → Ipc.findM m'.doc k = Ipc.findM m.doc k := by
  refine JsonText.C118 D V times m id t ps ?_ ht hv hid hr htime hp hf room hd h2
  show (parse (text t)).map Int.toNat = some t
  rw [C194_partial t h1 h9]
  rfl

theorem split_none (s : Str) (h : 'T' ∉ s) : split 'T' s = (s, []) := by
  induction s with
  | nil => rfl
  | cons c s ih =>
    rw [split, if_neg (by rintro rfl; exact h (List.mem_cons_self ..)), ih (fun hm => h (List.mem_cons_of_mem _ hm))]

/-- A text without a `T` is no time. -/
theorem C194_no_clock (s : Str) (h : 'T' ∉ s) : parse s = none := by
  unfold parse
  rw [split_none s h]
  cases readDate s <;> rfl

/-- The days of the months. -/
def months (y : Nat) : List Nat :=
  [31, if (4 ∣ y ∧ ¬ 100 ∣ y) ∨ 400 ∣ y then 29 else 28, 31, 30, 31, 30, 31, 31, 30, 31, 30, 31]

theorem months_lastDay (y m : Nat) (h : 1 ≤ m) (h' : m ≤ 12) : (months y)[m - 1]? = some (lastDay y m) := by
  have : m = 1 ∨ m = 2 ∨ m = 3 ∨ m = 4 ∨ m = 5 ∨ m = 6 ∨ m = 7 ∨ m = 8 ∨ m = 9 ∨ m = 10 ∨ m = 11 ∨ m = 12 := by omega
  rcases this with h | h | h | h | h | h | h | h | h | h | h | h <;> subst h <;> try rfl
  show some (if (4 ∣ y ∧ ¬ 100 ∣ y) ∨ 400 ∣ y then 29 else 28) = some (if leap y then 29 else 28)
  congr 1
  have : leap y = true ↔ (4 ∣ y ∧ ¬ 100 ∣ y) ∨ 400 ∣ y := by
    simp only [leap, Bool.and_eq_true, Bool.or_eq_true, beq_iff_eq, bne_iff_ne]
    omega
  by_cases hl : leap y = true
  · rw [if_pos hl, if_pos (this.1 hl)]
  · rw [if_neg hl, if_neg (fun h => hl (this.2 h))]

/-- What is accepted begins with a day of the calendar. -/
theorem C194_day (s : Str) (t : Int) (h : parse s = some t) : ∃ d, readDate (split 'T' s).1 = some d ∧
    1400 ≤ d.year ∧ d.year ≤ 9999 ∧ 1 ≤ d.month ∧ d.month ≤ 12 ∧ 1 ≤ d.day ∧ ∃ n, (months d.year)[d.month - 1]? = some n ∧ d.day ≤ n := by
  unfold parse at h
  cases hd : readDate (split 'T' s).1 with
  | none => rw [hd] at h; cases h
  | some d =>
    refine ⟨d, rfl, ?_⟩
    unfold readDate at hd
    simp only [Option.bind_eq_some_iff] at hd
    obtain ⟨y, _, m, _, k, _, hk⟩ := hd
    split at hk
    · next ok =>
      cases hk
      simp only [Date.ok, Bool.and_eq_true, decide_eq_true_eq] at ok
      obtain ⟨⟨⟨⟨⟨a, b⟩, c⟩, d⟩, e⟩, f⟩ := ok
      exact ⟨a, b, c, d, e, _, months_lastDay _ _ c d, f⟩
    · cases hk

/-- The full statement: a text that is accepted with a day in front is a time of that day. -/
def C194_statement : Prop := ∀ (s : Str) (t : Int) (d : Date), parse s = some t → readDate (split 'T' s).1 = some d →
  (dayNumber d * 86400000000 : Nat) ≤ t ∧ t < ((dayNumber d + 1) * 86400000000 : Nat)

/-- The hours, minutes and seconds are not compared with 24 and 60: this one is five days later. -/
theorem C194_violated : ¬ C194_statement := by
  intro h
  have h1 : parse "2026-01-01T99:99:99".toList = some 212634391239000000 := by decide +kernel
  have h2 : readDate (split 'T' "2026-01-01T99:99:99".toList).1 = some ⟨2026, 1, 1⟩ := by decide +kernel
  have h3 : dayNumber ⟨2026, 1, 1⟩ = 2461042 := by decide +kernel
  have := (h _ _ _ h1 h2).2
  rw [h3] at this
  omega

/-- A minus sign is taken as well: a text that begins with 1 January is a time on 31 December. -/
theorem C194_before : ∃ s t, parse s = some t ∧ readDate (split 'T' s).1 = some ⟨2026, 1, 1⟩ ∧
    t < (dayNumber ⟨2026, 1, 1⟩ * 86400000000 : Nat) ∧ text t.toNat = "2025-12-31T14:00:00".toList :=
  ⟨"2026-01-01T-10:00:00".toList, 212633992800000000, by decide +kernel, by decide +kernel, by decide +kernel,
    by decide +kernel⟩

/-- A time with a fraction. -/
example : text 212634158045000250 = "2026-01-02T11:54:05.000250".toList ∧
    parse "2026-01-02T11:54:05.000250".toList = some 212634158045000250 := by decide +kernel
example : 1400 ≤ (fromDayNumber (212634158045000250 / 86400000000)).year ∧
    (fromDayNumber (212634158045000250 / 86400000000)).year ≤ 9999 := by decide +kernel
/-- The last day of February in a leap year and in another one. -/
example : (parse "2024-02-29T00:00:00".toList).isSome = true ∧ parse "2023-02-29T00:00:00".toList = none := by decide +kernel
example : parse "not-a-date-time".toList = none := by decide +kernel

end Verif.Timestamp
