import Verif.Model.SimDrop

/-! C201: packets are left out with the probability asked for, and pauses come after every so many packets. -/
namespace Verif.SimDrop

/-- How many of the draws leave a packet out. -/
def leftOut (num : Int) (den : Nat) : Nat := ((List.range (randMax + 1)).filter (drops num den)).length

/-- The full claim about fractions: the share of the draws that leave a packet out is the fraction. -/
def C201_statement : Prop := ∀ num den : Nat, 0 < den → num ≤ den → leftOut num den * den = num * (randMax + 1)

theorem count_below (d m : Nat) (hd : 0 < d) : ∀ n : Nat, ((List.range n).filter (fun r => decide (r * d < m))).length = min n ((m + d - 1) / d)
  | 0 => by simp
  | n + 1 => by
    rw [List.range_succ, List.filter_append, List.length_append, count_below d m hd n]
    have key : n * d < m ↔ n < (m + d - 1) / d := by
      rw [Nat.lt_iff_add_one_le, Nat.lt_iff_add_one_le, Nat.le_div_iff_mul_le hd, Nat.add_mul]
      omega
    by_cases h : n * d < m
    · have := key.mp h
      simp only [List.filter_cons, List.filter_nil, h, decide_true, if_true, List.length_cons, List.length_nil]
      omega
    · have : ¬ n < (m + d - 1) / d := fun x => h (key.mpr x)
      simp only [List.filter_cons, List.filter_nil, h, decide_false, Bool.false_eq_true, if_false, List.length_nil]
      omega

theorem leftOut_eq (num den : Nat) (hd : 0 < den) (h : num ≤ den) : leftOut num den = (num * randMax + den - 1) / den := by
  unfold leftOut
  have e : drops num den = fun r => decide (r * den < num * randMax) := by
    funext r
    unfold drops
    rw [decide_eq_decide]
    omega
  rw [e, count_below den (num * randMax) hd]
  apply Nat.min_eq_right
  have : num * randMax ≤ den * randMax := Nat.mul_le_mul_right _ h
  rw [Nat.div_le_iff_le_mul_add_pred hd, Nat.mul_add]
  omega

/-- The number of draws that leave a packet out is that of the fraction, within one draw of 2^31. -/
theorem C201_partial (num den : Nat) (hd : 0 < den) (h : num ≤ den) :
    leftOut num den * den ≤ num * (randMax + 1) + den ∧ num * (randMax + 1) ≤ leftOut num den * den + den := by
  rw [leftOut_eq num den hd h]
  have h1 := Nat.div_mul_le_self (num * randMax + den - 1) den
  have h2 := Nat.lt_div_mul_add (a := num * randMax + den - 1) hd
  rw [Nat.mul_add, Nat.mul_one]
  omega

example : leftOut (1 : Nat) 2 = 1073741824 := by rw [leftOut_eq 1 2 (by decide) (by decide)]; decide

/-- With fraction 1 a packet is sent all the same if `rand` gives `RAND_MAX`, and only then. -/
theorem C201_all (r : Nat) (h : r ≤ randMax) : drops 1 1 r = false ↔ r = randMax := by
  unfold drops
  rw [decide_eq_false_iff_not]
  omega

theorem C201_violated : ¬ C201_statement := by
  intro h
  have := h 1 1 (by decide) (by decide)
  rw [leftOut_eq 1 1 (by decide) (by decide)] at this
  revert this
  decide

/-- With fraction 0, or less, nothing is left out; above 1 everything is. -/
theorem C201_ends (num : Int) (den r : Nat) (hr : r ≤ randMax) : (num ≤ 0 → drops num den r = false) ∧ ((den : Int) < num → drops num den r = true) := by
  unfold drops
  constructor
  · intro h
    rw [decide_eq_false_iff_not, Int.not_lt]
    have h1 : num * (randMax : Int) ≤ 0 := Int.mul_nonpos_of_nonpos_of_nonneg h (Int.natCast_nonneg _)
    have h2 : (0 : Int) ≤ (r : Int) * den := Int.mul_nonneg (Int.natCast_nonneg _) (Int.natCast_nonneg _)
    omega
  · intro h
    rw [decide_eq_true_eq]
    have h1 : (r : Int) * den ≤ (randMax : Int) * den := Int.mul_le_mul_of_nonneg_right (by omega) (Int.natCast_nonneg _)
    have h2 : (randMax : Int) * den < (randMax : Int) * num := Int.mul_lt_mul_of_pos_left h (by decide)
    rw [Int.mul_comm (randMax : Int) num] at h2
    omega

/-! ## The packets of a frame -/

/-- Packets sent or left out. -/
def packetOf : Ev → Option Nat
  | .drop p => some p
  | .send p => some p
  | .pause _ => none

/-- Packets sent. -/
def sentOf : Ev → Option Nat
  | .send p => some p
  | _ => none

/-- Pauses. -/
def pauseOf : Ev → Option Nat
  | .pause k => some k
  | _ => none

theorem pk_drop (p : Nat) (l : List Ev) : (Ev.drop p :: l).filterMap packetOf = p :: l.filterMap packetOf := rfl
theorem pk_send (p : Nat) (l : List Ev) : (Ev.send p :: l).filterMap packetOf = p :: l.filterMap packetOf := rfl
theorem st_drop (p : Nat) (l : List Ev) : (Ev.drop p :: l).filterMap sentOf = l.filterMap sentOf := rfl
theorem st_send (p : Nat) (l : List Ev) : (Ev.send p :: l).filterMap sentOf = p :: l.filterMap sentOf := rfl
theorem pa_drop (p : Nat) (l : List Ev) : (Ev.drop p :: l).filterMap pauseOf = l.filterMap pauseOf := rfl
theorem pa_send (p : Nat) (l : List Ev) : (Ev.send p :: l).filterMap pauseOf = l.filterMap pauseOf := rfl

theorem pauses_cases (gap : Option Int) (hg : gap ≠ some 0) (sent : Nat) :
    pauses gap sent = some (if gap.any (fun g => decide (g ∣ (sent : Int))) then [.pause sent] else []) := by
  unfold pauses
  cases gap with
  | none => rfl
  | some g =>
    have h : g ≠ 0 := fun e => hg (by rw [e])
    simp only [Option.any_some, decide_eq_true_eq, if_neg h]
    by_cases hd : g ∣ (sent : Int)
    · rw [if_pos hd, if_pos (Int.emod_eq_zero_of_dvd hd)]
    · rw [if_neg hd, if_neg (fun e => hd (Int.dvd_of_emod_eq_zero e))]

/-- Every packet is sent or left out, once and in order; it is sent exactly if its draw is not below the fraction and it is not in the list. -/
theorem packets_all (frac : Option (Int × Nat)) (listed : Nat → Bool) (gap : Option Int) (hg : gap ≠ some 0) : ∀ (l : List Nat) (p sent : Nat),
    ∃ ev, packets frac listed gap p sent l = some ev ∧ ev.filterMap packetOf = List.range' p l.length ∧
      ev.filterMap sentOf = ((l.zipIdx p).filter (fun x => !(dropped frac x.1 || listed x.2))).map (·.2) ∧
      ev.filterMap pauseOf = (List.range' (sent + 1) (ev.filterMap sentOf).length).filter (fun k : Nat => gap.any (fun g => decide (g ∣ (k : Int))))
  | [], p, sent => ⟨[], rfl, rfl, rfl, rfl⟩
  | r :: l, p, sent => by
    by_cases h : (dropped frac r || listed p) = true
    · obtain ⟨ev, h1, h2, h3, h4⟩ := packets_all frac listed gap hg l (p + 1) sent
      refine ⟨.drop p :: ev, ?_, ?_, ?_, ?_⟩
      · rw [packets, if_pos h, h1]; rfl
      · rw [pk_drop, h2]; rfl
      · rw [st_drop, h3, List.zipIdx_cons, List.filter_cons_of_neg (by simp only [h]; decide)]
      · rw [pa_drop, st_drop]; exact h4
    · obtain ⟨ev, h1, h2, h3, h4⟩ := packets_all frac listed gap hg l (p + 1) (sent + 1)
      have hp := pauses_cases gap hg (sent + 1)
      refine ⟨.send p :: ((if gap.any (fun g => decide (g ∣ ((sent + 1 : Nat) : Int))) then [.pause (sent + 1)] else []) ++ ev), ?_, ?_, ?_, ?_⟩
      · rw [packets, if_neg h, hp, h1]; rfl
      · rw [pk_send, List.filterMap_append, h2]
        split <;> rfl
      · rw [st_send, List.filterMap_append, h3, List.zipIdx_cons, List.filter_cons_of_pos (by simp only [Bool.not_eq_true] at h; simp only [h]; decide)]
        split <;> rfl
      · rw [pa_send, List.filterMap_append, h4, st_send, List.length_cons, List.filterMap_append]
        by_cases hd : gap.any (fun g => decide (g ∣ ((sent + 1 : Nat) : Int))) = true
        · rw [if_pos hd, List.range'_succ, List.filter_cons, if_pos hd]; rfl
        · rw [if_neg hd, List.range'_succ, List.filter_cons, if_neg hd]; rfl

/-- C201 for a frame: every packet is sent or left out, in order, and there is a pause after every `gap` packets sent. -/
theorem C201_frame (frac : Option (Int × Nat)) (listed : Nat → Bool) (gap : Option Int) (hg : gap ≠ some 0) (draws : List Nat) :
    ∃ ev, frame frac listed gap draws = some ev ∧ ev.filterMap packetOf = List.range' 0 draws.length ∧
      ev.filterMap sentOf = ((draws.zipIdx 0).filter (fun x => !(dropped frac x.1 || listed x.2))).map (·.2) ∧
      ev.filterMap pauseOf = (List.range' 1 (ev.filterMap sentOf).length).filter (fun k : Nat => gap.any (fun g => decide (g ∣ (k : Int)))) :=
  packets_all frac listed gap hg draws 0 0

/-- A pause follows the packet it counts at once. -/
theorem C201_order (frac : Option (Int × Nat)) (listed : Nat → Bool) (g : Int) (hg : g ≠ 0) (p sent r : Nat) (l : List Nat)
    (h : (dropped frac r || listed p) = false) (hd : g ∣ ((sent + 1 : Nat) : Int)) :
    packets frac listed (some g) p sent (r :: l) = (packets frac listed (some g) (p + 1) (sent + 1) l).map (fun t => .send p :: .pause (sent + 1) :: t) := by
  rw [packets, if_neg (by rw [h]; decide), pauses_cases (some g) (by simpa using hg), Option.bind_some]
  simp only [Option.any_some, decide_eq_true_eq, if_pos hd]
  rfl

/-- A gap of 0 is undefined as soon as a packet is sent. -/
theorem C201_zero (frac : Option (Int × Nat)) (listed : Nat → Bool) (r : Nat) (l : List Nat) (p sent : Nat) (h : (dropped frac r || listed p) = false) :
    packets frac listed (some 0) p sent (r :: l) = none := by
  rw [packets, if_neg (by rw [h]; decide)]
  rfl

example : frame (some (1, 2)) (fun p => p == 1) (some 2) [2000000000, 2000000000, 5, 2000000000, 1073741824] =
    some [.send 0, .drop 1, .drop 2, .send 3, .pause 2, .send 4] := by decide

example : frame none (fun _ => false) (some (-2)) [0, 0, 0] = some [.send 0, .send 1, .pause 2, .send 2] ∧ frame none (fun _ => false) (some 0) [0] = none := by decide

end Verif.SimDrop
