import Verif.Model.MessageEq
import Verif.Props.Times
/-
C180: two messages compare equal exactly when they have the same content.
-/
namespace Verif.MessageEq
open Verif.Ipc

namespace Spec

/-- A step into a value: a member of an object or an element of an array. -/
inductive Step
  | name (n : Str)
  | index (i : Nat)

/-- The value one step further. -/
def child : Json → Step → Option Json
  | .obj l, .name n => (l.find? (fun x => decide (x.1 = n))).map (·.2)
  | .arr l, .index i => l[i]?
  | _, _ => none

/-- The value at the end of a path. -/
def follow : List Step → Json → Option Json
  | [], j => some j
  | s :: p, j => (child j s).bind (follow p)

/-- The double with bits `b` is the integer `i`: a finite one, `mantissa * 2 ^ exponent` with the sign. -/
def Denotes (b : Nat) (i : Int) : Prop :=
  b / 2 ^ 52 % 2048 ≠ 2047 ∧
  (if b / 2 ^ 52 % 2048 = 0 then b % 2 ^ 52 * 2 else (2 ^ 52 + b % 2 ^ 52) * 2 ^ (b / 2 ^ 52 % 2048)) = i.natAbs * 2 ^ 1075 ∧
  (0 < i → b / 2 ^ 63 = 0) ∧ (i < 0 → b / 2 ^ 63 ≠ 0)

/-- What two values have in common without looking into them. -/
def Head : Json → Json → Prop
  | .null, .null => True
  | .bool a, .bool b => a = b
  | .num a, .num b => a = b
  | .dbl a, .dbl b => a = b ∨ (Denotes a 0 ∧ Denotes b 0)
  | .num a, .dbl b => Denotes b a
  | .dbl a, .num b => Denotes a b
  | .str a, .str b => a = b
  | .arr _, .arr _ => True
  | .obj _, .obj _ => True
  | _, _ => False

/-- Both are there, and alike; or neither is there. -/
def Both (R : Json → Json → Prop) : Option Json → Option Json → Prop
  | some a, some b => R a b
  | none, none => True
  | _, _ => False

/-- The same content: the same values at the ends of all paths. -/
def Same (a b : Json) : Prop := ∀ p, Both Head (follow p a) (follow p b)

/-- The same parameters. -/
def SameParams (a b : Option Json) : Prop := Both Same ((block a).map .obj) ((block b).map .obj)

mutual
/-- No object has two members of one name, and `P` holds of all numbers. -/
def Tidy (P : Json → Prop) : Json → Prop
  | .num i => P (.num i)
  | .dbl b => P (.dbl b)
  | .arr l => TidyL P l
  | .obj l => (l.map (·.1)).Nodup ∧ TidyM P l
  | _ => True

def TidyL (P : Json → Prop) : List Json → Prop
  | [] => True
  | j :: l => Tidy P j ∧ TidyL P l

def TidyM (P : Json → Prop) : List (Str × Json) → Prop
  | [] => True
  | (_, v) :: l => Tidy P v ∧ TidyM P l
end

/-- Parameters as they are meant to be: tidy, and no name contains the character zero. -/
def TidyParams (P : Json → Prop) : Option Json → Prop
  | some (.obj l) => Tidy P (.obj l) ∧ ∀ x ∈ l, '\x00' ∉ x.1
  | _ => True

/-- Signed integers of 64 bits only. -/
def Signed : Json → Prop
  | .num i => -2 ^ 63 ≤ i ∧ i < 2 ^ 63
  | _ => False

/-- Unsigned integers of 64 bits only. -/
def Unsigned : Json → Prop
  | .num i => 0 ≤ i ∧ i < 2 ^ 64
  | _ => False

/-- Any integers, and doubles that are numbers. -/
def Numbers : Json → Prop
  | .dbl b => isNaN b = false
  | _ => True

/-- Integers below 2^53 and doubles that are numbers. -/
def Small : Json → Prop
  | .num i => -2 ^ 53 < i ∧ i < 2 ^ 53
  | .dbl b => isNaN b = false ∧ b < 2 ^ 64
  | _ => False

end Spec
open Spec

/-! ## Lists and objects -/

theorem tidyL_mem (P : Json → Prop) : ∀ (l : List Json), TidyL P l → ∀ j ∈ l, Tidy P j
  | [], _, _, h => by simp at h
  | a :: l, h, j, hj => by
    simp only [TidyL] at h
    rcases List.mem_cons.1 hj with e | hj
    · exact e ▸ h.1
    · exact tidyL_mem P l h.2 j hj

theorem tidyM_mem (P : Json → Prop) : ∀ (l : List (Str × Json)), TidyM P l → ∀ x ∈ l, Tidy P x.2
  | [], _, _, h => by simp at h
  | (n, v) :: l, h, x, hx => by
    simp only [TidyM] at h
    rcases List.mem_cons.1 hx with e | hx
    · exact e ▸ h.1
    · exact tidyM_mem P l h.2 x hx

theorem find_eq (l : List (Str × Json)) (n : Str) : (l.find? (fun x => decide (x.1 = n))).map (·.2) = findM l n := by
  induction l with
  | nil => rfl
  | cons a l ih =>
    obtain ⟨m, v⟩ := a
    by_cases h : m = n
    · simp [findM, h]
    · simp [findM, h, ih]

theorem find_some_mem (l : List (Str × Json)) (n : Str) (v : Json) (h : findM l n = some v) : (n, v) ∈ l := by
  induction l with
  | nil => simp [findM] at h
  | cons a l ih =>
    obtain ⟨m, w⟩ := a
    by_cases e : m = n
    · simp [findM, e] at h; simp [e, h]
    · simp [findM, e] at h; simp [ih h]

theorem find_of_mem (l : List (Str × Json)) (h : (l.map (·.1)).Nodup) (n : Str) (v : Json) (hm : (n, v) ∈ l) :
    findM l n = some v := by
  induction l with
  | nil => simp at hm
  | cons a l ih =>
    obtain ⟨m, w⟩ := a
    simp only [List.map_cons, List.nodup_cons] at h
    rcases List.mem_cons.1 hm with e | hm
    · cases e; simp [findM]
    · have : ¬ m = n := fun e => h.1 (e ▸ List.mem_map.2 ⟨(n, v), hm, rfl⟩)
      simp [findM, this, ih h.2 hm]

theorem find_isSome (l : List (Str × Json)) (n : Str) : (findM l n).isSome = true ↔ n ∈ l.map (·.1) := by
  induction l with
  | nil => simp [findM]
  | cons a l ih =>
    obtain ⟨m, w⟩ := a
    by_cases e : m = n
    · simp [findM, e]
    · simp only [findM, e, if_false, ih, List.map_cons, List.mem_cons]
      constructor
      · exact Or.inr
      · rintro (h | h)
        · exact absurd h.symm e
        · exact h

/-- As many names, all of them there: the names are the same. -/
theorem names_back {α : Type} [DecidableEq α] : ∀ (a b : List α), a.Nodup → a.length = b.length → (∀ x ∈ a, x ∈ b) → ∀ x ∈ b, x ∈ a
  | [], b, _, hl, _, x, hx => by
    have : b = [] := List.length_eq_zero_iff.1 hl.symm
    simp [this] at hx
  | y :: a, b, hd, hl, hs, x, hx => by
    rw [List.nodup_cons] at hd
    have hy : y ∈ b := hs y (by simp)
    by_cases e : x = y
    · simp [e]
    · have hlen : (b.erase y).length = b.length - 1 := List.length_erase_of_mem hy
      simp only [List.length_cons] at hl
      have := names_back a (b.erase y) hd.2 (by omega) (fun z hz => (List.mem_erase_of_ne (fun e : z = y => hd.1 (e ▸ hz))).2 (hs z (by simp [hz]))) x
        ((List.mem_erase_of_ne e).2 hx)
      simp [this]

theorem length_of_names {α : Type} [DecidableEq α] : ∀ (a b : List α), a.Nodup → (∀ x ∈ a, x ∈ b) → a.length ≤ b.length
  | [], _, _, _ => Nat.zero_le _
  | y :: a, b, hd, hs => by
    rw [List.nodup_cons] at hd
    have hy : y ∈ b := hs y (by simp)
    have hlen : (b.erase y).length = b.length - 1 := List.length_erase_of_mem hy
    have := length_of_names a (b.erase y) hd.2 (fun z hz => (List.mem_erase_of_ne (fun e : z = y => hd.1 (e ▸ hz))).2 (hs z (by simp [hz])))
    have hb : 0 < b.length := List.length_pos_of_mem hy
    simp only [List.length_cons]
    omega

theorem both_of {R : Json → Json → Prop} {a b : Option Json} : Both R a b ↔
    (a = none ∧ b = none) ∨ ∃ x y, a = some x ∧ b = some y ∧ R x y := by
  cases a <;> cases b <;> simp [Both]

theorem same_iff (a b : Json) : Same a b ↔ Head a b ∧ ∀ s, Both Same (child a s) (child b s) := by
  constructor
  · intro h
    refine ⟨h [], fun s => ?_⟩
    have h1 : Both Head (child a s) (child b s) := by
      have := h [s]
      simp only [follow] at this
      have e : ∀ o : Option Json, o.bind some = o := fun o => by cases o <;> rfl
      rw [show (child a s).bind (fun j => some j) = child a s from e _, show (child b s).bind (fun j => some j) = child b s from e _] at this
      exact this
    rcases both_of.1 h1 with ⟨e1, e2⟩ | ⟨x, y, e1, e2, _⟩
    · rw [e1, e2]; trivial
    · rw [e1, e2]
      intro p
      have := h (s :: p)
      simp only [follow, e1, e2, Option.bind_some] at this
      exact this
  · rintro ⟨h, hc⟩ p
    cases p with
    | nil => exact h
    | cons s p =>
      simp only [follow]
      rcases both_of.1 (hc s) with ⟨e1, e2⟩ | ⟨x, y, e1, e2, e3⟩
      · rw [e1, e2]; trivial
      · rw [e1, e2]; exact e3 p

/-- A value with nothing in it. -/
theorem same_leaf (a b : Json) (ha : ∀ s, child a s = none) (hb : Head a b → ∀ s, child b s = none) : Same a b ↔ Head a b := by
  rw [same_iff]
  constructor
  · exact And.left
  · exact fun h => ⟨h, fun s => by rw [ha, hb h]; trivial⟩

theorem same_arr (l k : List Json) : Same (.arr l) (.arr k) ↔ ∀ i : Nat, Both Same l[i]? k[i]? := by
  rw [same_iff]
  constructor
  · exact fun h i => h.2 (.index i)
  · refine fun h => ⟨trivial, fun s => ?_⟩
    cases s with
    | name n => exact trivial
    | index i => exact h i

theorem same_obj (l k : List (Str × Json)) : Same (.obj l) (.obj k) ↔ ∀ n, Both Same (findM l n) (findM k n) := by
  rw [same_iff]
  constructor
  · intro h n
    have := h.2 (.name n)
    simp only [child, find_eq] at this
    exact this
  · refine fun h => ⟨trivial, fun s => ?_⟩
    cases s with
    | index n => exact trivial
    | name n =>
      simp only [child, find_eq]
      exact h n

/-- Members found in another object, with any way of comparing values. -/
theorem members_iff (l k : List (Str × Json)) (hl : (l.map (·.1)).Nodup) (hk : (k.map (·.1)).Nodup)
    (R : Json → Json → Prop) :
    (l.length = k.length ∧ ∀ x ∈ l, ∃ w, findM k x.1 = some w ∧ R x.2 w) ↔ ∀ n, Both R (findM l n) (findM k n) := by
  constructor
  · rintro ⟨hlen, h⟩ n
    rw [both_of]
    cases hf : findM l n with
    | some v =>
      obtain ⟨w, h1, h2⟩ := h _ (find_some_mem l n v hf)
      exact Or.inr ⟨v, w, rfl, h1, h2⟩
    | none =>
      refine Or.inl ⟨rfl, ?_⟩
      cases hg : findM k n with
      | none => rfl
      | some w =>
        have hn := names_back (l.map (·.1)) (k.map (·.1)) hl (by simpa using hlen) (fun x hx => by
          obtain ⟨y, hy, e⟩ := List.mem_map.1 hx
          obtain ⟨w, h1, _⟩ := h y hy
          exact (find_isSome k x).1 (by rw [← e, h1]; rfl)) n ((find_isSome k n).1 (by rw [hg]; rfl))
        have := (find_isSome l n).2 hn
        rw [hf] at this
        cases this
  · intro h
    have hsub : ∀ x, x ∈ l.map (·.1) ↔ x ∈ k.map (·.1) := by
      intro x
      rw [← find_isSome, ← find_isSome]
      rcases both_of.1 (h x) with ⟨e1, e2⟩ | ⟨u, v, e1, e2, _⟩ <;> simp [e1, e2]
    refine ⟨?_, fun x hx => ?_⟩
    · have h1 := length_of_names _ _ hl (fun x hx => (hsub x).1 hx)
      have h2 := length_of_names _ _ hk (fun x hx => (hsub x).2 hx)
      simp only [List.length_map] at h1 h2
      omega
    · have hf := find_of_mem l hl x.1 x.2 hx
      rcases both_of.1 (h x.1) with ⟨e1, _⟩ | ⟨u, v, e1, e2, e3⟩
      · rw [hf] at e1; cases e1
      · rw [hf] at e1
        cases e1
        exact ⟨v, e2, e3⟩

/-! ## Numbers -/

/-- Comparing numbers that are meant to be compared says whether they are the same. -/
def Agree (P : Json → Prop) : Prop :=
  ∀ x y, P x → P y → (valEq x y = true ↔ Head x y)

theorem stored_signed (a b : Int) (ha : -2 ^ 63 ≤ a ∧ a < 2 ^ 63) (hb : -2 ^ 63 ≤ b ∧ b < 2 ^ 63) : stored a = stored b ↔ a = b := by
  unfold stored
  constructor
  · intro h; omega
  · exact fun h => by rw [h]

theorem agree_signed : Agree Signed := by
  intro x y hx hy
  cases x <;> simp only [Signed] at hx
  cases y <;> simp only [Signed] at hy
  simp only [valEq, Head, beq_iff_eq]
  exact stored_signed _ _ hx hy

theorem agree_unsigned : Agree Unsigned := by
  intro x y hx hy
  cases x <;> simp only [Unsigned] at hx
  cases y <;> simp only [Unsigned] at hy
  simp only [valEq, Head, beq_iff_eq, stored]
  constructor
  · intro h; omega
  · exact fun h => by rw [h]

theorem power (M m s t : Nat) : M * 2 ^ s = m * 2 ^ t ↔
    (if t ≤ s then some (M * 2 ^ (s - t)) else if M % 2 ^ (t - s) = 0 then some (M / 2 ^ (t - s)) else none) = some m := by
  by_cases h : t ≤ s
  · rw [if_pos h, Option.some.injEq, show (2 : Nat) ^ s = 2 ^ (s - t) * 2 ^ t by rw [← Nat.pow_add, Nat.sub_add_cancel h], ← Nat.mul_assoc]
    exact Nat.mul_left_inj (by have := Nat.two_pow_pos t; omega)
  · rw [if_neg h, show (2 : Nat) ^ t = 2 ^ (t - s) * 2 ^ s by rw [← Nat.pow_add, Nat.sub_add_cancel (by omega)], ← Nat.mul_assoc,
      Nat.mul_left_inj (by have := Nat.two_pow_pos s; omega)]
    have hp := Nat.two_pow_pos (t - s)
    generalize 2 ^ (t - s) = q at *
    constructor
    · intro e
      rw [e, Nat.mul_mod_left, if_pos rfl, Nat.mul_div_cancel _ hp]
    · intro e
      split at e
      · next e2 =>
        cases e
        have := Nat.div_add_mod M q
        rw [e2, Nat.add_zero, Nat.mul_comm] at this
        exact this.symm
      · cases e

theorem magnitude_iff (b m : Nat) : magnitude b = some m ↔ b / 2 ^ 52 % 2048 ≠ 2047 ∧
    (if b / 2 ^ 52 % 2048 = 0 then b % 2 ^ 52 * 2 else (2 ^ 52 + b % 2 ^ 52) * 2 ^ (b / 2 ^ 52 % 2048)) = m * 2 ^ 1075 := by
  unfold magnitude
  by_cases h : b / 2 ^ 52 % 2048 = 2047
  · rw [if_pos h]
    exact ⟨fun e => (by cases e), fun e => absurd h e.1⟩
  · rw [if_neg h, ← power]
    have hv : mantissa b * 2 ^ scale b =
        (if b / 2 ^ 52 % 2048 = 0 then b % 2 ^ 52 * 2 else (2 ^ 52 + b % 2 ^ 52) * 2 ^ (b / 2 ^ 52 % 2048)) := by
      unfold mantissa scale
      by_cases h0 : b / 2 ^ 52 % 2048 = 0
      · rw [if_pos h0, if_pos h0, h0]; rfl
      · rw [if_neg h0, if_neg h0, Nat.max_eq_left (by omega)]
    rw [hv]
    exact ⟨fun e => ⟨h, e⟩, fun e => e.2⟩

theorem intOf_iff (b : Nat) (i : Int) : intOf b = some i ↔ Denotes b i := by
  unfold intOf Denotes
  have hm := magnitude_iff b i.natAbs
  rw [← and_assoc, ← hm]
  constructor
  · intro h
    obtain ⟨m, h1, h2⟩ := Option.map_eq_some_iff.1 h
    split at h2
    · next h3 =>
      refine ⟨?_, fun _ => h3, fun h => ?_⟩
      · rw [h1, ← h2]; simp
      · omega
    · next h3 =>
      refine ⟨?_, fun h => ?_, fun h => h3⟩
      · rw [h1, ← h2]; simp
      · omega
  · rintro ⟨h1, h2, h3⟩
    rw [h1, Option.map_some, Option.some.injEq]
    split
    · next h => 
      have : ¬ i < 0 := fun hi => h3 hi h
      omega
    · next h =>
      have : ¬ 0 < i := fun hi => h (h2 hi)
      omega

theorem isZero_iff (b : Nat) : isZero b = true ↔ Denotes b 0 := by
  unfold isZero Denotes
  rw [beq_iff_eq]
  constructor
  · intro h
    have h1 : b / 2 ^ 52 % 2048 = 0 := by omega
    have h2 : b % 2 ^ 52 = 0 := by omega
    rw [h1, if_pos rfl, h2]
    exact ⟨by decide, by simp, by omega, by omega⟩
  · rintro ⟨_, h2, _⟩
    rw [Int.natAbs_zero, Nat.zero_mul] at h2
    split at h2
    · omega
    · have := Nat.mul_eq_zero.1 h2
      have := Nat.two_pow_pos (b / 2 ^ 52 % 2048)
      omega

theorem agree_small : Agree Small := by
  intro x y hx hy
  cases x with
  | num a =>
    cases y with
    | num b =>
      simp only [Small] at hx hy
      simp only [valEq, Head, beq_iff_eq]
      exact stored_signed _ _ (by omega) (by omega)
    | dbl b =>
      simp only [Small] at hx hy
      simp only [valEq, Head, mixedEq, beq_iff_eq]
      rw [Times.rndInt_exact a hx.1 hx.2]
      exact intOf_iff b a
    | _ => simp only [Small] at hy
  | dbl a =>
    cases y with
    | num b =>
      simp only [Small] at hx hy
      simp only [valEq, Head, mixedEq, beq_iff_eq]
      rw [Times.rndInt_exact b hy.1 hy.2]
      exact intOf_iff a b
    | dbl b =>
      simp only [Small] at hx hy
      simp only [valEq, Head, dblEq, hx.1, hy.1, Bool.not_false, Bool.true_and, Bool.or_eq_true, beq_iff_eq, Bool.and_eq_true, isZero_iff]
    | _ => simp only [Small] at hy
  | _ => simp only [Small] at hx

/-! ## Values -/

mutual
theorem valEq_iff (P : Json → Prop) (hP : Agree P) : ∀ a b : Json, Tidy P a → Tidy P b → (valEq a b = true ↔ Same a b)
  | .arr l, b, ha, hb => by
    cases b with
    | arr k =>
      simp only [valEq]
      rw [same_arr]
      exact listEq_iff P hP l k (by simpa only [Tidy] using ha) (by simpa only [Tidy] using hb)
    | _ =>
      simp only [valEq]
      exact ⟨fun h => (by cases h), fun h => absurd (h []) (by simp [follow, Both, Head])⟩
  | .obj l, b, ha, hb => by
    cases b with
    | obj k =>
      simp only [Tidy] at ha hb
      simp only [valEq, Bool.and_eq_true, beq_iff_eq]
      rw [same_obj, ← members_iff l k ha.1 hb.1, membersEq_iff P hP l k ha.2 hb.2]
    | _ =>
      simp only [valEq]
      exact ⟨fun h => (by cases h), fun h => absurd (h []) (by simp [follow, Both, Head])⟩
  | .null, b, _, _ => by
    rw [same_leaf .null b (fun s => rfl) (fun h s => by cases b <;> first | rfl | exact absurd h (by simp [Head]))]
    cases b <;> simp [valEq, Head]
  | .bool a, b, _, _ => by
    rw [same_leaf (.bool a) b (fun s => rfl) (fun h s => by cases b <;> first | rfl | exact absurd h (by simp [Head]))]
    cases b <;> simp [valEq, Head]
  | .str a, b, _, _ => by
    rw [same_leaf (.str a) b (fun s => rfl) (fun h s => by cases b <;> first | rfl | exact absurd h (by simp [Head]))]
    cases b <;> simp [valEq, Head]
  | .num a, b, ha, hb => by
    rw [same_leaf (.num a) b (fun s => rfl) (fun h s => by cases b <;> first | rfl | exact absurd h (by simp [Head]))]
    simp only [Tidy] at ha
    cases b with
    | num c => exact hP _ _ ha (by simpa only [Tidy] using hb)
    | dbl c => exact hP _ _ ha (by simpa only [Tidy] using hb)
    | _ => simp [valEq, Head]
  | .dbl a, b, ha, hb => by
    rw [same_leaf (.dbl a) b (fun s => rfl) (fun h s => by cases b <;> first | rfl | exact absurd h (by simp [Head]))]
    simp only [Tidy] at ha
    cases b with
    | num c => exact hP _ _ ha (by simpa only [Tidy] using hb)
    | dbl c => exact hP _ _ ha (by simpa only [Tidy] using hb)
    | _ => simp [valEq, Head]

theorem listEq_iff (P : Json → Prop) (hP : Agree P) : ∀ l k : List Json, TidyL P l → TidyL P k →
    (listEq l k = true ↔ ∀ i : Nat, Both Same l[i]? k[i]?)
  | [], k, _, _ => by
    cases k with
    | nil => simp [listEq, Both]
    | cons b k => exact ⟨fun h => (by simp [listEq] at h), fun h => absurd (h 0) (by simp [Both])⟩
  | a :: l, k, hl, hk => by
    cases k with
    | nil => exact ⟨fun h => (by simp [listEq] at h), fun h => absurd (h 0) (by simp [Both])⟩
    | cons b k =>
      simp only [TidyL] at hl hk
      simp only [listEq, Bool.and_eq_true]
      rw [valEq_iff P hP a b hl.1 hk.1, listEq_iff P hP l k hl.2 hk.2]
      constructor
      · rintro ⟨h1, h2⟩ i
        cases i with
        | zero => exact h1
        | succ i => simpa using h2 i
      · intro h
        exact ⟨h 0, fun i => by simpa using h (i + 1)⟩

theorem membersEq_iff (P : Json → Prop) (hP : Agree P) : ∀ l k : List (Str × Json), TidyM P l → TidyM P k →
    (membersEq l k = true ↔ ∀ x ∈ l, ∃ w, findM k x.1 = some w ∧ Same x.2 w)
  | [], k, _, _ => by simp [membersEq]
  | (n, v) :: l, k, hl, hk => by
    simp only [TidyM] at hl
    simp only [membersEq, Bool.and_eq_true]
    rw [membersEq_iff P hP l k hl.2 hk]
    cases hf : findM k n with
    | none => simp [hf]
    | some w =>
      have := valEq_iff P hP v w hl.1 (tidyM_mem P k hk _ (find_some_mem k n w hf))
      simp [hf, this]
end

theorem cut_eq (n : Str) (h : '\x00' ∉ n) : cut n = n := by
  unfold cut
  induction n with
  | nil => rfl
  | cons c n ih =>
    have hc : c ≠ '\x00' := fun e => h (by simp [e])
    rw [List.takeWhile_cons, if_pos (by simpa using hc), ih (fun hm => h (by simp [hm]))]

theorem paramsEq_eq (l k : List (Str × Json)) (h : ∀ x ∈ l, '\x00' ∉ x.1) : paramsEq l k = membersEq l k := by
  induction l with
  | nil => simp [paramsEq, membersEq]
  | cons a l ih =>
    obtain ⟨n, v⟩ := a
    simp only [paramsEq, membersEq]
    rw [cut_eq n (h (n, v) (by simp)), ih (fun x hx => h x (by simp [hx]))]

/-! ## C180 -/

/-- The full claim: `==` is whether all fields of the messages are the same. -/
def C180_statement : Prop :=
  ∀ a b : Msg, equal a b = true ↔ a.type = b.type ∧ a.val = b.val ∧ a.id = b.id ∧ a.time = b.time ∧ SameParams a.params b.params

/-- The parameters are compared rightly, if the numbers in them are. -/
theorem block_iff (P : Json → Prop) (hP : Agree P) (a b : Option Json) (ha : TidyParams P a) (hb : TidyParams P b) :
    blockEq (block a) (block b) = true ↔ SameParams a b := by
  unfold SameParams
  have hcases : ∀ o : Option Json, (∃ l, o = some (.obj l)) ∨ block o = none := by
    intro o
    cases o with
    | none => exact Or.inr rfl
    | some j => cases j <;> first | exact Or.inr rfl | exact Or.inl ⟨_, rfl⟩
  rcases hcases a with ⟨l, rfl⟩ | h1 <;> rcases hcases b with ⟨k, rfl⟩ | h2
  · have : valEq (.obj l) (.obj k) = true ↔ Same (.obj l) (.obj k) := valEq_iff P hP _ _ ha.1 hb.1
    rw [show valEq (.obj l) (.obj k) = (l.length == k.length && membersEq l k) by simp only [valEq], ← paramsEq_eq l k ha.2] at this
    exact this
  · rw [h2]; simp [block, blockEq, Both]
  · rw [h1]; simp [block, blockEq, Both]
  · rw [h1, h2]; simp [blockEq, Both]

theorem equal_iff (P : Json → Prop) (hP : Agree P) (a b : Msg) (ha : TidyParams P a.params) (hb : TidyParams P b.params) :
    equal a b = true ↔ a.type = b.type ∧ a.val = b.val ∧ SameParams a.params b.params := by
  unfold equal
  rw [Bool.and_eq_true, Bool.and_eq_true, decide_eq_true_iff, decide_eq_true_iff, block_iff P hP _ _ ha hb, and_assoc]

/-- What holds: types, values and parameters are compared, when no object has two members of one name, no parameter has a name
with the character zero in it, and the numbers are all signed, or all unsigned, or integers below 2^53 and doubles that are not
NaN. Missing from the full claim: id and time stamp, and these exceptions. -/
theorem C180_partial (P : Json → Prop) (hP : P = Signed ∨ P = Unsigned ∨ P = Small) (a b : Msg) (ha : TidyParams P a.params)
    (hb : TidyParams P b.params) :
    equal a b = true ↔ a.type = b.type ∧ a.val = b.val ∧ SameParams a.params b.params := by
  refine equal_iff P ?_ a b ha hb
  rcases hP with rfl | rfl | rfl
  · exact agree_signed
  · exact agree_unsigned
  · exact agree_small

/-- A message with these parameters. -/
def msg (l : List (Str × Json)) : Msg := { doc := [("params".toList, .obj l)] }

/-- Id and time stamp are not compared, although the comment in the code says all fields are. -/
theorem C180_violated : ¬ C180_statement := by
  intro h
  have := (h (msg []) { msg [] with id := some 1 }).1 rfl
  exact absurd this.2.2.1 (by decide)

/-- The same with all attributes equal: -1 and 18446744073709551615 are kept in the same bits. -/
theorem C180_sign : equal (msg [("limit".toList, .num (-1))]) (msg [("limit".toList, .num 18446744073709551615)]) = true ∧
    ¬ SameParams (msg [("limit".toList, .num (-1))]).params (msg [("limit".toList, .num 18446744073709551615)]).params := by
  refine ⟨by decide +kernel, fun h => ?_⟩
  have := h [.name "limit".toList]
  exact absurd this (by simp [follow, child, Both, Head])

/-- An integer above 2^53 equals the double next to it. -/
theorem C180_rounded : equal (msg [("limit".toList, .num 9007199254740993)]) (msg [("limit".toList, .dbl 0x4340000000000000)]) = true ∧
    Denotes 0x4340000000000000 9007199254740992 := by
  refine ⟨by decide +kernel, ?_⟩
  rw [← intOf_iff]
  decide +kernel

/-- Two members of one name: the comparison depends on the order, and a message is not equal to itself. -/
theorem C180_twice :
    equal (msg [("a".toList, .num 1), ("a".toList, .num 1)]) (msg [("a".toList, .num 1), ("b".toList, .num 2)]) = true ∧
    equal (msg [("a".toList, .num 1), ("b".toList, .num 2)]) (msg [("a".toList, .num 1), ("a".toList, .num 1)]) = false ∧
    equal (msg [("a".toList, .num 1), ("a".toList, .num 2)]) (msg [("a".toList, .num 1), ("a".toList, .num 2)]) = false := by
  decide +kernel

/-- A name with the character zero in it, of a parameter: not equal to itself. -/
theorem C180_zero : equal (msg [("a\x00b".toList, .num 1)]) (msg [("a\x00b".toList, .num 1)]) = false := by
  decide +kernel

mutual
theorem valEq_refl : ∀ j : Json, Tidy Numbers j → valEq j j = true
  | .null, _ => by simp only [valEq]
  | .bool b, _ => by simp [valEq]
  | .num b, _ => by simp [valEq]
  | .dbl b, h => by
    simp only [Tidy, Numbers] at h
    simp [valEq, dblEq, h]
  | .str b, _ => by simp [valEq]
  | .arr l, h => by
    simp only [valEq]
    exact listEq_refl l (by simpa only [Tidy] using h)
  | .obj l, h => by
    simp only [Tidy] at h
    simp only [valEq, beq_self_eq_true, Bool.true_and]
    exact membersEq_refl l l h.2 (fun n v hm => find_of_mem l h.1 n v hm)

theorem listEq_refl : ∀ l : List Json, TidyL Numbers l → listEq l l = true
  | [], _ => by simp only [listEq]
  | j :: l, h => by
    simp only [TidyL] at h
    simp only [listEq, valEq_refl j h.1, listEq_refl l h.2, Bool.and_self]

theorem membersEq_refl : ∀ (l b : List (Str × Json)), TidyM Numbers l → (∀ n v, (n, v) ∈ l → findM b n = some v) →
    membersEq l b = true
  | [], _, _, _ => by simp only [membersEq]
  | (n, v) :: l, b, h, hb => by
    simp only [TidyM] at h
    simp only [membersEq, hb n v (by simp), valEq_refl v h.1, Bool.true_and]
    exact membersEq_refl l b h.2 (fun n v hm => hb n v (by simp [hm]))
end

theorem blockEq_refl (o : Option Json) (h : TidyParams Numbers o) : blockEq (block o) (block o) = true := by
  cases o with
  | none => rfl
  | some j =>
    cases j with
    | obj l =>
      have := valEq_refl (.obj l) h.1
      simp only [valEq] at this
      rw [← paramsEq_eq l l h.2] at this
      exact this
    | _ => rfl

/-- With names used once and without the character zero, and without NaN, a message equals itself, whatever the integers. -/
theorem C180_refl (a : Msg) (h : TidyParams Numbers a.params) : equal a a = true := by
  unfold equal
  rw [blockEq_refl _ h]
  simp

/-- Equality is symmetric. -/
theorem C180_symm (P : Json → Prop) (hP : P = Signed ∨ P = Unsigned ∨ P = Small) (a b : Msg) (ha : TidyParams P a.params)
    (hb : TidyParams P b.params) : equal a b = equal b a := by
  have hd : ∀ x y, Head x y → Head y x := by
    intro x y h
    cases x <;> cases y <;> first
      | exact h
      | exact Eq.symm h
      | exact h.elim (fun e => Or.inl e.symm) (fun e => Or.inr ⟨e.2, e.1⟩)
  have hs : ∀ x y, SameParams x y → SameParams y x := by
    intro x y h
    rcases both_of.1 h with ⟨e1, e2⟩ | ⟨u, v, e1, e2, e3⟩
    · unfold SameParams; rw [e1, e2]; trivial
    · unfold SameParams
      rw [e1, e2]
      intro p
      rcases both_of.1 (e3 p) with ⟨f1, f2⟩ | ⟨u, v, f1, f2, f3⟩
      · rw [f1, f2]; trivial
      · rw [f1, f2]; exact hd _ _ f3
  rw [Bool.eq_iff_iff, C180_partial P hP a b ha hb, C180_partial P hP b a hb ha]
  exact ⟨fun h => ⟨h.1.symm, h.2.1.symm, hs _ _ h.2.2⟩, fun h => ⟨h.1.symm, h.2.1.symm, hs _ _ h.2.2⟩⟩

/-- Non-vacuity: nested parameters in another order, an integer as a double. -/
def exA : Msg := msg [("a".toList, .num 3), ("b".toList, .obj [("x".toList, .arr [.num 1, .str "s".toList]), ("y".toList, .bool true)])]
def exB : Msg := msg [("b".toList, .obj [("y".toList, .bool true), ("x".toList, .arr [.dbl 0x3FF0000000000000, .str "s".toList])]), ("a".toList, .num 3)]

example : TidyParams Small exA.params ∧ TidyParams Small exB.params := by
  have : exA.params = some (.obj [("a".toList, .num 3), ("b".toList, .obj [("x".toList, .arr [.num 1, .str "s".toList]), ("y".toList, .bool true)])]) := by
    simp [exA, msg, Msg.params, findM]
  have h2 : exB.params = some (.obj [("b".toList, .obj [("y".toList, .bool true), ("x".toList, .arr [.dbl 0x3FF0000000000000, .str "s".toList])]), ("a".toList, .num 3)]) := by
    simp [exB, msg, Msg.params, findM]
  rw [this, h2]
  refine ⟨⟨?_, ?_⟩, ?_, ?_⟩
  · simp only [Tidy, TidyM, TidyL, Small]; decide
  · decide
  · simp only [Tidy, TidyM, TidyL, Small]; decide
  · decide
example : equal exA exB = true ∧ equal exA (msg []) = false := by decide +kernel

/-- A double of sign `s`, exponent `e` and fraction `f` is not a number exactly if its exponent has all bits and its fraction is not zero; infinities
are numbers, and equal to themselves. -/
theorem C180_nan (s e f : Nat) (he : e < 2048) (hf : f < 2 ^ 52) : isNaN (s * 2 ^ 63 + e * 2 ^ 52 + f) = true ↔ e = 2047 ∧ f ≠ 0 := by
  have h1 : (s * 2 ^ 63 + e * 2 ^ 52 + f) / 2 ^ 52 % 2048 = e := by omega
  have h2 : (s * 2 ^ 63 + e * 2 ^ 52 + f) % 2 ^ 52 = f := by omega
  unfold isNaN
  rw [h1, h2]
  simp

theorem C180_infinity (s : Nat) : dblEq (s * 2 ^ 63 + 2047 * 2 ^ 52) (s * 2 ^ 63 + 2047 * 2 ^ 52) = true := by
  have : isNaN (s * 2 ^ 63 + 2047 * 2 ^ 52 + 0) = false := by
    cases h : isNaN (s * 2 ^ 63 + 2047 * 2 ^ 52 + 0) with
    | false => rfl
    | true => exact absurd rfl ((C180_nan s 2047 0 (by decide) (by decide)).1 h).2
  rw [Nat.add_zero] at this
  unfold dblEq
  rw [this]
  simp

/-- What is not a number equals nothing, not even itself. -/
theorem C180_nan_differs (a b : Nat) (h : isNaN a = true ∨ isNaN b = true) : valEq (.dbl a) (.dbl b) = false := by
  simp only [valEq, dblEq]
  rcases h with h | h <;> rw [h] <;> simp

end Verif.MessageEq
