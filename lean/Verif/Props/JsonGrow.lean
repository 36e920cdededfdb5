import Verif.Model.JsonGrow
import Verif.Props.PoolAllocator

/-
C159: arrays, objects and strings of a document hold what was put into them, however they grow between each other.
-/
namespace Verif.JsonGrow

open Verif.PoolAllocator

namespace Spec

/-- What the strings, arrays and objects should hold: elements of as many bytes each. -/
abbrev Elements := List (Kind × List (List Nat))

/-- The bytes of an element. -/
def bytes : Kind → Nat
  | .text => 1
  | .array => 16
  | .object => 32

def appended (v : List Nat) : Option (Kind × List (List Nat)) → Kind × List (List Nat)
  | some (k, l) => (k, l ++ [v])
  | none => (.text, [])

def after (c : Elements) : Act → Elements
  | .fresh k vs => c ++ [(k, vs)]
  | .push i v => c.set i (appended v c[i]?)

/-- What may be asked: elements of the right size, fewer than 2^31 of them where more are appended. -/
def Allowed (c : Elements) : Act → Prop
  | .fresh k vs => (∀ v ∈ vs, v.length = bytes k) ∧ vs.length < 2 ^ 32
  | .push i v => ∃ k l, c[i]? = some (k, l) ∧ v.length = bytes k ∧ l.length < 2 ^ 31

/-- The memory that a header leads to holds the elements. -/
def Holds (m : Nat → Nat) (s : Seq) (x : Kind × List (List Nat)) : Prop :=
  s.kind = x.1 ∧ s.size = x.2.length ∧
    ∀ i v, x.2[i]? = some v → ∃ q, s.ptr = some q ∧ v.length = bytes x.1 ∧ ∀ j, j < v.length → m (q + i * bytes x.1 + j) = v.getD j 0

/-- The document holds what it should. -/
def AllHold (d : Doc) (c : Elements) : Prop := d.seqs.length = c.length ∧ ∀ (i : Nat) s x, d.seqs[i]? = some s → c[i]? = some x → Holds d.mem s x

end Spec

open Spec

/-- The document and what it should hold, after acts with any answers of the C library that it may give. -/
inductive Run : Doc → Elements → Prop
  | new (m : Mem) : Run (Doc.new m) []
  | step (d : Doc) (c : Elements) (lib : Nat → Option Nat) (a : Act) (d' : Doc) : Run d c → Library (givenOf d.pool) lib → Allowed c a →
      act d lib a = some d' → Run d' (after c a)

/-! ### Memory -/

theorem store_in (m : Mem) (x : Nat) (bs : List Nat) (j : Nat) (h : j < bs.length) : store m x bs (x + j) = bs.getD j 0 := by
  simp only [store]
  rw [if_pos ⟨by omega, by omega⟩, show x + j - x = j by omega]

theorem store_out (m : Mem) (x : Nat) (bs : List Nat) (y : Nat) (h : y < x ∨ x + bs.length ≤ y) : store m x bs y = m y := by
  simp only [store]
  rw [if_neg (by omega)]

theorem store_cons (m : Mem) (x b : Nat) (bs : List Nat) : store m x (b :: bs) = store (poke m x b) (x + 1) bs := by
  funext y
  simp only [store, poke, List.length_cons]
  by_cases h : y = x
  · subst h
    rw [if_pos ⟨by omega, by omega⟩, if_neg (by omega), if_pos rfl, Nat.sub_self]
    rfl
  · by_cases h' : x ≤ y ∧ y < x + (bs.length + 1)
    · rw [if_pos h', if_pos ⟨by omega, by omega⟩]
      obtain ⟨k, hk⟩ : ∃ k, y - x = k + 1 := ⟨y - x - 1, by omega⟩
      rw [hk, show y - (x + 1) = k by omega]
      rfl
    · rw [if_neg h', if_neg (by omega), if_neg h]

theorem store_nil (m : Mem) (x : Nat) : store m x [] = m := by
  funext y
  simp only [store, List.length_nil]
  rw [if_neg (by omega)]

theorem reach_store {p : Pool} {live : List (Nat × Nat)} {b : Nat × Nat} (hb : b ∈ live) (bs : List Nat) (m : Mem) (x : Nat)
    (h : Reach ⟨p, m, live⟩) (h1 : b.1 ≤ x) (h2 : x + bs.length ≤ b.1 + b.2) : Reach ⟨p, store m x bs, live⟩ := by
  induction bs generalizing m x with
  | nil => rw [store_nil]; exact h
  | cons v bs ih =>
    rw [store_cons]
    simp only [List.length_cons] at h2
    refine ih (poke m x v) (x + 1) ?_ (by omega) (by omega)
    exact Reach.step ⟨p, m, live⟩ (fun _ => none) (.write x v) h (fun n b h => by simp at h) ⟨b, hb, h1, by omega⟩

theorem width_bytes (k : Kind) : width k = bytes k := by cases k <;> rfl

theorem bytes_pos (k : Kind) : 0 < bytes k ∧ bytes k ≤ 32 := by cases k <;> decide

/-! ### The invariant -/

/-- A header and the blocks that the document owns. -/
def Fine (live : List (Nat × Nat)) (s : Seq) : Prop :=
  s.size ≤ s.cap ∧ s.cap < 2 ^ 32 ∧ (s.ptr = none → s.cap = 0) ∧ ∀ q, s.ptr = some q → 0 < s.cap ∧ (q, s.cap * bytes s.kind) ∈ live

structure Ok (live : List (Nat × Nat)) (d : Doc) (c : Elements) : Prop where
  reach : Reach ⟨d.pool, d.mem, live⟩
  len : d.seqs.length = c.length
  fine : ∀ (i : Nat) s, d.seqs[i]? = some s → Fine live s
  holds : ∀ (i : Nat) s x, d.seqs[i]? = some s → c[i]? = some x → Holds d.mem s x
  apart : ∀ (i j : Nat) s t q, i ≠ j → d.seqs[i]? = some s → d.seqs[j]? = some t → s.ptr = some q → t.ptr ≠ some q

/-- Elements are inside the block. -/
theorem mul_in {i n w j : Nat} (h : i < n) (hj : j < w) : i * w + j < n * w := by
  have : (i + 1) * w ≤ n * w := Nat.mul_le_mul_right w h
  rw [Nat.add_mul, Nat.one_mul] at this
  omega

/-- What a header leads to is the same if its block is. -/
theorem holds_same {m m' : Mem} {s : Seq} {x : Kind × List (List Nat)} (h : Holds m s x)
    (hs : ∀ q, s.ptr = some q → ∀ y, q ≤ y → y < q + s.size * bytes s.kind → m' y = m y) : Holds m' s x := by
  refine ⟨h.1, h.2.1, fun i v hv => ?_⟩
  obtain ⟨q, hq, hl, hm⟩ := h.2.2 i v hv
  refine ⟨q, hq, hl, fun j hj => ?_⟩
  have hi : i < x.2.length := by
    rw [List.getElem?_eq_some_iff] at hv
    exact hv.1
  have := mul_in (w := bytes x.1) hi (hl ▸ hj)
  rw [hs q hq _ (by omega) (by rw [h.1, h.2.1]; omega)]
  exact hm j hj

theorem apart_of {live : List (Nat × Nat)} {x y : Nat × Nat} (h : live.Pairwise fun a b => Disjoint a.1 a.2 b.1 b.2) (hx : x ∈ live) (hy : y ∈ live) (hn : x.1 ≠ y.1) :
    Disjoint x.1 x.2 y.1 y.2 := by
  induction live with
  | nil => cases hx
  | cons a l ih =>
    rw [List.pairwise_cons] at h
    rcases List.mem_cons.mp hx with e | hx
    · rcases List.mem_cons.mp hy with e' | hy
      · exact absurd (by rw [e, e']) hn
      · rw [e]; exact h.1 y hy
    · rcases List.mem_cons.mp hy with e | hy
      · rw [e]; exact disjoint_symm (h.1 x hx)
      · exact ih h.2 hx hy

/-- A block of the pool was added at the end of the list. -/
theorem get_append {α : Type} {l : List α} {a : α} {i : Nat} {s : α} (h : (l ++ [a])[i]? = some s) : l[i]? = some s ∨ (i = l.length ∧ s = a) := by
  rcases Nat.lt_trichotomy i l.length with hi | hi | hi
  · rw [List.getElem?_append_left hi] at h; exact Or.inl h
  · subst hi
    simp at h
    exact Or.inr ⟨rfl, h.symm⟩
  · rw [List.getElem?_eq_none (by simp; omega)] at h
    cases h

theorem get_lt {α : Type} {l : List α} {i : Nat} {s : α} (h : l[i]? = some s) : i < l.length := by
  rw [List.getElem?_eq_some_iff] at h
  exact h.1

/-- An element is put where there is room. -/
theorem put_inv {live : List (Nat × Nat)} {d : Doc} {c : Elements} (h : Ok live d c) (i : Nat) (s : Seq) (q : Nat) (v : List Nat) (k : Kind) (l : List (List Nat))
    (hs : d.seqs[i]? = some s) (hq : s.ptr = some q) (hr : s.size < s.cap) (hc : c[i]? = some (k, l)) (hv : v.length = bytes k) :
    Ok live ⟨d.pool, store d.mem (q + s.size * width s.kind) v, d.seqs.set i ⟨s.kind, some q, s.size + 1, s.cap⟩⟩ (c.set i (k, l ++ [v])) := by
  obtain ⟨hk, hsz, hel⟩ := h.holds i s _ hs hc
  have hf := h.fine i s hs
  obtain ⟨hpos, hmem⟩ := hf.2.2.2 q hq
  dsimp only at hk hsz hel
  have hil := get_lt hs
  have hend : s.size * bytes s.kind + v.length ≤ s.cap * bytes s.kind := by
    have := Nat.mul_le_mul_right (bytes s.kind) (show s.size + 1 ≤ s.cap from hr)
    rw [Nat.add_mul, Nat.one_mul] at this
    rw [hv, ← hk]; exact this
  have snd := (C151 _ h.reach).1
  dsimp only at snd
  refine ⟨reach_store hmem v d.mem _ h.reach (by dsimp only; omega) (by dsimp only; rw [width_bytes]; omega), by simp [h.len], ?_, ?_, ?_⟩
  · intro j t ht
    by_cases hij : i = j
    · subst hij
      rw [List.getElem?_set_self hil] at ht
      cases ht
      exact ⟨by dsimp only; omega, hf.2.1, fun h => by simp at h, fun q' h' => by simp at h'; subst h'; exact ⟨hpos, hmem⟩⟩
    · rw [List.getElem?_set_ne hij] at ht
      exact h.fine j t ht
  · intro j t x ht hx
    by_cases hij : i = j
    · subst hij
      rw [List.getElem?_set_self hil] at ht
      cases ht
      rw [List.getElem?_set_self (get_lt hc)] at hx
      cases hx
      refine ⟨hk, by simp [hsz], fun n w hw => ⟨q, rfl, ?_⟩⟩
      rcases get_append hw with hw | ⟨hn, rfl⟩
      · obtain ⟨q', hq', hl', hm'⟩ := hel n w hw
        rw [hq] at hq'; cases hq'
        refine ⟨hl', fun j hj => ?_⟩
        dsimp only
        rw [store_out, hm' j hj]
        have := mul_in (w := bytes k) (get_lt hw) (hl' ▸ hj)
        rw [width_bytes, hsz, hk]
        omega
      · refine ⟨hv, fun j hj => ?_⟩
        rw [hn, ← hsz, ← hk, ← width_bytes]
        exact store_in d.mem _ _ j hj
    · rw [List.getElem?_set_ne hij] at ht
      rw [List.getElem?_set_ne hij] at hx
      refine holds_same (h.holds j t x ht hx) fun q' hq' y h1 h2 => ?_
      have hft := h.fine j t ht
      obtain ⟨hp', hm'⟩ := hft.2.2.2 q' hq'
      have hne : q' ≠ q := fun e => h.apart j i t s q' (Ne.symm hij) ht hs hq' (e ▸ hq)
      have hd := apart_of snd.apart hm' hmem hne
      have := Nat.mul_le_mul_right (bytes t.kind) hft.1
      dsimp only at hd ⊢
      apply store_out
      rw [width_bytes]
      rcases hd with hd | hd
      · left; omega
      · right; omega
  · intro a b s' t' q' hab hs' ht' hq' hq''
    by_cases ha : i = a
    · subst ha
      rw [List.getElem?_set_self hil] at hs'
      cases hs'
      rw [List.getElem?_set_ne hab] at ht'
      exact h.apart i b s t' q' hab hs ht' (hq.trans hq') hq''
    · rw [List.getElem?_set_ne ha] at hs'
      by_cases hb : i = b
      · subst hb
        rw [List.getElem?_set_self hil] at ht'
        cases ht'
        exact h.apart a i s' s q' hab hs' hs hq' (hq.trans hq'')
      · rw [List.getElem?_set_ne hb] at ht'
        exact h.apart a b s' t' q' hab hs' ht' hq' hq''

/-! ### Growth -/

theorem larger_ok (n : Nat) (h : n < 2 ^ 31) : n < larger n ∧ larger n < 2 ^ 32 := by
  simp only [larger]
  by_cases h0 : n = 0
  · rw [if_pos h0]; omega
  · rw [if_neg h0, Nat.mod_eq_of_lt (show n + 1 < 2 ^ 32 by omega), Nat.mod_eq_of_lt (by omega)]
    omega

/-- Both ways to make room are the same. -/
theorem room_eq (p : Pool) (m : Mem) (s : Seq) (lib : Nat → Option Nat) (hn : s.ptr = none ↔ s.cap = 0) (hc : s.size ≥ s.cap) (hb : s.cap < 2 ^ 31) :
    room p m s lib = ((realloc p m s.ptr (s.cap * width s.kind) (larger s.cap * width s.kind) lib).1,
      (realloc p m s.ptr (s.cap * width s.kind) (larger s.cap * width s.kind) lib).2.1,
      ⟨s.kind, (realloc p m s.ptr (s.cap * width s.kind) (larger s.cap * width s.kind) lib).2.2, s.size, larger s.cap⟩) := by
  have hl := larger_ok s.cap hb
  have ha : roomArray p m s lib = ((realloc p m s.ptr (s.cap * width s.kind) (larger s.cap * width s.kind) lib).1,
      (realloc p m s.ptr (s.cap * width s.kind) (larger s.cap * width s.kind) lib).2.1,
      ⟨s.kind, (realloc p m s.ptr (s.cap * width s.kind) (larger s.cap * width s.kind) lib).2.2, s.size, larger s.cap⟩) := by
    simp only [roomArray]
    rw [if_pos hc]
    simp only [reserve]
    rw [if_pos hl.1]
  have ho : roomObject p m s lib = roomArray p m s lib := by
    rw [ha]
    simp only [roomObject]
    rw [if_pos hc]
    by_cases h0 : s.cap = 0
    · rw [if_pos h0, hn.mpr h0]
      simp only [realloc]
    · rw [if_neg h0]
  rw [← ha]
  simp only [room]
  split
  · exact ho
  · rfl

/-- The block grows, and the content stays. -/
theorem grow_inv {live : List (Nat × Nat)} {d : Doc} {c : Elements} (h : Ok live d c) (lib : Nat → Option Nat) (hlib : Library (givenOf d.pool) lib) (i : Nat) (s : Seq)
    (hs : d.seqs[i]? = some s) (hfull : s.size ≥ s.cap) (hb : s.cap < 2 ^ 31) (q : Nat)
    (hq : (realloc d.pool d.mem s.ptr (s.cap * bytes s.kind) (larger s.cap * bytes s.kind) lib).2.2 = some q) :
    ∃ live', Ok live' ⟨(realloc d.pool d.mem s.ptr (s.cap * bytes s.kind) (larger s.cap * bytes s.kind) lib).1,
      (realloc d.pool d.mem s.ptr (s.cap * bytes s.kind) (larger s.cap * bytes s.kind) lib).2.1, d.seqs.set i ⟨s.kind, some q, s.size, larger s.cap⟩⟩ c := by
  have hl := larger_ok s.cap hb
  have hw := bytes_pos s.kind
  have hf := h.fine i s hs
  have hil := get_lt hs
  have hnew : larger s.cap * bytes s.kind ≤ 2 ^ 62 := by
    have := Nat.mul_le_mul (Nat.le_of_lt hl.2) hw.2
    exact Nat.le_trans this (by decide)
  have hlegal : Legal live (.realloc s.ptr (s.cap * bytes s.kind) (larger s.cap * bytes s.kind)) := by
    cases hp : s.ptr with
    | none => exact hnew
    | some a => exact ⟨(hf.2.2.2 a hp).2, hnew⟩
  have hstep := (C151 _ h.reach).2 lib _ hlib hlegal
  have hreach := Reach.step _ lib _ h.reach hlib hlegal
  simp only [World.next, run] at hstep hreach
  rw [hq] at hstep hreach
  obtain ⟨snd, cont, -⟩ := hstep
  refine ⟨_, hreach, by simp [h.len], ?_, ?_, ?_⟩
  all_goals
    have hnewmem : (q, larger s.cap * bytes s.kind) ∈ own live (some q) (.realloc s.ptr (s.cap * bytes s.kind) (larger s.cap * bytes s.kind)) := by
      cases s.ptr <;> simp [own]
    have hothers : ∀ j t b, i ≠ j → d.seqs[j]? = some t → t.ptr = some b →
        (b, t.cap * bytes t.kind) ∈ own live (some q) (.realloc s.ptr (s.cap * bytes s.kind) (larger s.cap * bytes s.kind)) ∧
        Same d.mem (realloc d.pool d.mem s.ptr (s.cap * bytes s.kind) (larger s.cap * bytes s.kind) lib).2.1 (b, t.cap * bytes t.kind) := by
      intro j t b hij ht htb
      have hm := ((h.fine j t ht).2.2.2 b htb).2
      cases hp : s.ptr with
      | none =>
        rw [hp] at cont
        exact ⟨List.mem_cons_of_mem _ hm, cont _ hm⟩
      | some a =>
        rw [hp] at cont
        have hne : (b, t.cap * bytes t.kind) ≠ (a, s.cap * bytes s.kind) := fun e =>
          h.apart j i t s b (Ne.symm hij) ht hs htb (by rw [hp]; exact congrArg some (congrArg Prod.fst e).symm)
        have hm' := (List.mem_erase_of_ne hne).mpr hm
        exact ⟨List.mem_cons_of_mem _ hm', cont.1 _ hm'⟩
    have hdiff : ∀ j t b, i ≠ j → d.seqs[j]? = some t → t.ptr = some b → b ≠ q := by
      intro j t b hij ht htb e
      have hfr := h.fine j t ht
      have hin := ((h.fine j t ht).2.2.2 b htb)
      have hp : ∀ x ∈ (match s.ptr with | none => live | some a => live.erase (a, s.cap * bytes s.kind)), Disjoint q (larger s.cap * bytes s.kind) x.1 x.2 := by
        intro x hx
        have sa := snd.apart
        cases hp : s.ptr with
        | none =>
          rw [hp] at sa hx
          exact (List.pairwise_cons.mp sa).1 x hx
        | some a =>
          rw [hp] at sa hx
          exact (List.pairwise_cons.mp sa).1 x hx
      have hx : (b, t.cap * bytes t.kind) ∈ (match s.ptr with | none => live | some a => live.erase (a, s.cap * bytes s.kind)) := by
        cases hp : s.ptr with
        | none => exact hin.2
        | some a =>
          have hne : (b, t.cap * bytes t.kind) ≠ (a, s.cap * bytes s.kind) := fun e =>
            h.apart j i t s b (Ne.symm hij) ht hs htb (by rw [hp]; exact congrArg some (congrArg Prod.fst e).symm)
          exact (List.mem_erase_of_ne hne).mpr hin.2
      have := hp _ hx
      have h1 : 0 < t.cap * bytes t.kind := Nat.mul_pos hin.1 (bytes_pos _).1
      have h2 : 0 < larger s.cap * bytes s.kind := Nat.mul_pos (by omega) hw.1
      simp only [Disjoint] at this
      omega
  · intro j t ht
    by_cases hij : i = j
    · subst hij
      rw [List.getElem?_set_self hil] at ht
      cases ht
      have := hf.1
      exact ⟨by dsimp only; omega, hl.2, fun h => by simp at h, fun q' h' => by simp at h'; subst h'; exact ⟨by dsimp only; omega, hnewmem⟩⟩
    · rw [List.getElem?_set_ne hij] at ht
      have hft := h.fine j t ht
      exact ⟨hft.1, hft.2.1, hft.2.2.1, fun b hb => ⟨(hft.2.2.2 b hb).1, (hothers j t b hij ht hb).1⟩⟩
  · intro j t x ht hx
    by_cases hij : i = j
    · subst hij
      rw [List.getElem?_set_self hil] at ht
      cases ht
      have hh := h.holds i s x hs hx
      refine ⟨hh.1, hh.2.1, fun n v hv => ⟨q, rfl, ?_⟩⟩
      obtain ⟨a, ha, hvl, hvm⟩ := hh.2.2 n v hv
      refine ⟨hvl, fun j hj => ?_⟩
      rw [ha] at cont
      have hin := mul_in (w := bytes x.1) (get_lt hv) (hvl ▸ hj)
      have hcap : x.2.length * bytes x.1 ≤ s.cap * bytes s.kind := by
        rw [hh.1, ← hh.2.1]; exact Nat.mul_le_mul_right _ hf.1
      have hcap' : s.cap * bytes s.kind ≤ larger s.cap * bytes s.kind := Nat.mul_le_mul_right _ (Nat.le_of_lt hl.1)
      have := cont.2 (n * bytes x.1 + j) (by omega) (by omega)
      dsimp only
      rw [ha, Nat.add_assoc, this, ← Nat.add_assoc]
      exact hvm j hj
    · rw [List.getElem?_set_ne hij] at ht
      refine holds_same (h.holds j t x ht hx) fun b hb y h1 h2 => ?_
      have := Nat.mul_le_mul_right (bytes t.kind) (h.fine j t ht).1
      exact (hothers j t b hij ht hb).2 y h1 (by dsimp only; omega)
  · intro a b s' t' q' hab hs' ht' hq' hq''
    by_cases ha : i = a
    · subst ha
      rw [List.getElem?_set_self hil] at hs'
      cases hs'
      rw [List.getElem?_set_ne hab] at ht'
      cases hq'
      exact hdiff b t' q hab ht' hq'' rfl
    · rw [List.getElem?_set_ne ha] at hs'
      by_cases hb : i = b
      · subst hb
        rw [List.getElem?_set_self hil] at ht'
        cases ht'
        cases hq''
        exact hdiff a s' q ha hs' hq' rfl
      · rw [List.getElem?_set_ne hb] at ht'
        exact h.apart a b s' t' q' hab hs' ht' hq' hq''

theorem none_iff {live : List (Nat × Nat)} {s : Seq} (h : Fine live s) : s.ptr = none ↔ s.cap = 0 := by
  refine ⟨h.2.2.1, fun h0 => ?_⟩
  cases hp : s.ptr with
  | none => rfl
  | some q => have := (h.2.2.2 q hp).1; omega

/-- PushBack and AddMember. -/
theorem push_inv {live : List (Nat × Nat)} {d : Doc} {c : Elements} (h : Ok live d c) (lib : Nat → Option Nat) (hlib : Library (givenOf d.pool) lib) (i : Nat)
    (v : List Nat) (ha : Allowed c (.push i v)) (d' : Doc) (hd : act d lib (.push i v) = some d') : ∃ live', Ok live' d' (after c (.push i v)) := by
  obtain ⟨k, l, hc, hv, hlen⟩ := ha
  have hic : i < d.seqs.length := h.len ▸ get_lt hc
  have hs : d.seqs[i]? = some d.seqs[i] := List.getElem?_eq_getElem hic
  generalize d.seqs[i] = s at hs
  simp only [act, hs] at hd
  have hf := h.fine i s hs
  have hh := h.holds i s _ hs hc
  have hsz : s.size = l.length := hh.2.1
  simp only [after, hc, appended]
  by_cases hfull : s.size ≥ s.cap
  · have hb : s.cap < 2 ^ 31 := by omega
    rw [room_eq d.pool d.mem s lib (none_iff hf) hfull hb] at hd
    simp only [put, width_bytes] at hd
    cases hq : (realloc d.pool d.mem s.ptr (s.cap * bytes s.kind) (larger s.cap * bytes s.kind) lib).2.2 with
    | none => rw [hq] at hd; cases hd
    | some q =>
      rw [hq] at hd
      obtain ⟨live', h'⟩ := grow_inv h lib hlib i s hs hfull hb q hq
      have hl := larger_ok s.cap hb
      have := put_inv h' i ⟨s.kind, some q, s.size, larger s.cap⟩ q v k l (by simp [hic]) rfl (by dsimp only; have := hf.1; omega) hc hv
      simp only [List.set_set, width_bytes] at this
      cases hd
      exact ⟨live', this⟩
  · have hroom : room d.pool d.mem s lib = (d.pool, d.mem, s) := by
      simp only [room]
      split <;> simp only [roomArray, roomObject] <;> rw [if_neg hfull]
    rw [hroom] at hd
    simp only [put] at hd
    cases hq : s.ptr with
    | none => rw [hq] at hd; cases hd
    | some q =>
      rw [hq] at hd
      cases hd
      exact ⟨live, put_inv h i s q v k l hs hq (by omega) hc hv⟩

/-! ### New values -/

theorem flatten_length {w : Nat} (vs : List (List Nat)) (h : ∀ v ∈ vs, v.length = w) : vs.flatten.length = vs.length * w := by
  induction vs with
  | nil => simp
  | cons v vs ih =>
    rw [List.flatten_cons, List.length_append, ih (fun x hx => h x (List.mem_cons_of_mem _ hx)), h v List.mem_cons_self, List.length_cons, Nat.add_mul, Nat.one_mul]
    omega

theorem flatten_get {w : Nat} (vs : List (List Nat)) (h : ∀ v ∈ vs, v.length = w) (i : Nat) (v : List Nat) (hv : vs[i]? = some v) (j : Nat) (hj : j < w) :
    vs.flatten.getD (i * w + j) 0 = v.getD j 0 := by
  induction vs generalizing i with
  | nil => simp at hv
  | cons u vs ih =>
    have hu := h u List.mem_cons_self
    rw [List.flatten_cons]
    cases i with
    | zero =>
      simp only [List.getElem?_cons_zero, Option.some.injEq] at hv
      subst hv
      simp only [Nat.zero_mul, Nat.zero_add, List.getD_eq_getElem?_getD]
      rw [List.getElem?_append_left (by omega)]
    | succ i =>
      simp only [List.getElem?_cons_succ] at hv
      have := ih (fun x hx => h x (List.mem_cons_of_mem _ hx)) i hv
      simp only [List.getD_eq_getElem?_getD] at this ⊢
      rw [List.getElem?_append_right (by rw [Nat.add_mul]; omega)]
      rw [show (i + 1) * w + j - u.length = i * w + j by rw [hu, Nat.add_mul]; omega]
      exact this

/-- What is added at the end leaves the rest. -/
theorem add_inv {live live' : List (Nat × Nat)} {d : Doc} {c : Elements} (h : Ok live d c) (p : Pool) (m : Mem) (s : Seq) (x : Kind × List (List Nat))
    (hr : Reach ⟨p, m, live'⟩) (hsub : ∀ b ∈ live, b ∈ live') (hsame : ∀ b ∈ live, Same d.mem m b) (hf : Fine live' s) (hh : Holds m s x)
    (hnew : ∀ q, s.ptr = some q → ∀ b ∈ live, b.2 ≠ 0 → b.1 ≠ q) : Ok live' ⟨p, m, d.seqs ++ [s]⟩ (c ++ [x]) := by
  refine ⟨hr, by simp [h.len], ?_, ?_, ?_⟩
  · intro i t ht
    rcases get_append ht with ht | ⟨_, rfl⟩
    · have := h.fine i t ht
      exact ⟨this.1, this.2.1, this.2.2.1, fun q hq => ⟨(this.2.2.2 q hq).1, hsub _ (this.2.2.2 q hq).2⟩⟩
    · exact hf
  · intro i t y ht hy
    rcases get_append ht with ht | ⟨hi, rfl⟩
    · have hy' : c[i]? = some y := by
        rcases get_append hy with hy | ⟨hi, _⟩
        · exact hy
        · have := get_lt ht; rw [h.len] at this; omega
      refine holds_same (h.holds i t y ht hy') fun q hq z h1 h2 => ?_
      have hft := h.fine i t ht
      have := Nat.mul_le_mul_right (bytes t.kind) hft.1
      exact hsame _ (hft.2.2.2 q hq).2 z h1 (by dsimp only; omega)
    · rcases get_append hy with hy | ⟨_, rfl⟩
      · have := get_lt hy; have := h.len; omega
      · exact hh
  · intro i j a b q hij ha hb hqa hqb
    rcases get_append ha with ha' | ⟨hi, ea⟩
    · rcases get_append hb with hb' | ⟨hj, eb⟩
      · exact h.apart i j a b q hij ha' hb' hqa hqb
      · have := (h.fine i a ha').2.2.2 q hqa
        exact hnew q (eb ▸ hqb) _ this.2 (Nat.ne_of_gt (Nat.mul_pos this.1 (bytes_pos _).1)) rfl
    · rcases get_append hb with hb' | ⟨hj, eb⟩
      · have := (h.fine j b hb').2.2.2 q hqb
        exact hnew q (ea ▸ hqa) _ this.2 (Nat.ne_of_gt (Nat.mul_pos this.1 (bytes_pos _).1)) rfl
      · exact hij (hi.trans hj.symm)

theorem fresh_inv {live : List (Nat × Nat)} {d : Doc} {c : Elements} (h : Ok live d c) (lib : Nat → Option Nat) (hlib : Library (givenOf d.pool) lib) (k : Kind)
    (vs : List (List Nat)) (ha : Allowed c (.fresh k vs)) (d' : Doc) (hd : act d lib (.fresh k vs) = some d') : ∃ live', Ok live' d' (after c (.fresh k vs)) := by
  obtain ⟨hv, hn⟩ := ha
  simp only [act, after] at hd ⊢
  cases vs with
  | nil =>
    simp only [fresh] at hd
    cases hd
    exact ⟨live, add_inv h d.pool d.mem ⟨k, none, 0, 0⟩ (k, []) h.reach (fun _ hb => hb) (fun b _ y _ _ => rfl)
      ⟨Nat.le_refl _, by dsimp only; omega, fun _ => rfl, fun q hq => by cases hq⟩ ⟨rfl, rfl, fun i v hv => by simp at hv⟩ (fun q hq => by cases hq)⟩
  | cons v vs =>
    generalize hl : v :: vs = us at *
    have hpos : 0 < us.length := by rw [← hl]; simp
    have hd' : fresh d k us lib = (match (malloc d.pool (us.length * width k) lib).2 with
      | none => none
      | some q => some ⟨(malloc d.pool (us.length * width k) lib).1, store d.mem q us.flatten, d.seqs ++ [⟨k, some q, us.length, us.length⟩]⟩) := by
      rw [← hl]; rfl
    rw [hd'] at hd
    cases hq : (malloc d.pool (us.length * width k) lib).2 with
    | none => rw [hq] at hd; cases hd
    | some q =>
      rw [hq] at hd
      cases hd
      have hw := bytes_pos k
      have hlegal : Legal live (.malloc (us.length * width k)) := by
        have := Nat.mul_le_mul (Nat.le_of_lt hn) hw.2
        rw [width_bytes]
        exact Nat.le_trans this (by decide)
      have hstep := (C151 _ h.reach).2 lib _ hlib hlegal
      have hreach := Reach.step _ lib _ h.reach hlib hlegal
      simp only [World.next, run, own] at hstep hreach
      rw [hq] at hstep hreach
      obtain ⟨snd, cont, -⟩ := hstep
      dsimp only at hreach snd
      have hap := (List.pairwise_cons.mp snd.apart).1
      have hlen := flatten_length us hv
      have hsz : 0 < us.length * bytes k := Nat.mul_pos hpos hw.1
      refine ⟨(q, us.length * width k) :: live, add_inv h _ _ _ _
        (reach_store (b := (q, us.length * width k)) List.mem_cons_self _ _ _ hreach (Nat.le_refl _) (by dsimp only; rw [hlen, width_bytes]; omega))
        (fun b hb => List.mem_cons_of_mem _ hb) ?_ ?_ ?_ ?_⟩
      · intro b hb y h1 h2
        have := hap b hb
        apply store_out
        rw [width_bytes] at this
        rw [hlen]
        simp only [Disjoint] at this
        omega
      · exact ⟨Nat.le_refl _, hn, fun h => by simp at h, fun q' h' => by simp at h'; subst h'; exact ⟨hpos, by rw [← width_bytes]; exact List.mem_cons_self⟩⟩
      · refine ⟨rfl, rfl, fun i u hu => ⟨q, rfl, hv u (List.mem_of_getElem? hu), fun j hj => ?_⟩⟩
        have hul := hv u (List.mem_of_getElem? hu)
        have hin := mul_in (w := bytes k) (get_lt hu) (hul ▸ hj)
        dsimp only at hin ⊢
        rw [Nat.add_assoc, store_in _ _ _ _ (by omega)]
        exact flatten_get us hv i u hu j (by omega)
      · intro q' h' b hb hb0 e
        simp at h'
        subst h'
        have := hap b hb
        rw [width_bytes] at this
        simp only [Disjoint] at this
        omega

theorem run_inv {d : Doc} {c : Elements} (h : Run d c) : ∃ live, Ok live d c := by
  induction h with
  | new m => exact ⟨[], .new m, rfl, fun i s hs => by simp [Doc.new] at hs, fun i s x hs => by simp [Doc.new] at hs, fun i j s t q _ hs => by simp [Doc.new] at hs⟩
  | step d c lib a d' _ hlib ha hd ih =>
    obtain ⟨live, h⟩ := ih
    cases a with
    | fresh k vs => exact fresh_inv h lib hlib k vs ha d' hd
    | push i v => exact push_inv h lib hlib i v ha d' hd

/-- C159: whatever strings, arrays and objects are made in a document and appended to, in any order and number, and wherever the C library puts the
chunks of the pool, each one holds exactly the elements that were put into it, in their order; and an act fails only if the library gives no memory. -/
theorem C159 (d : Doc) (c : Elements) (h : Run d c) :
    AllHold d c ∧ ∀ lib a, Library (givenOf d.pool) lib → Allowed c a → (∀ k, lib k ≠ none) → ∃ d', act d lib a = some d' := by
  obtain ⟨live, hi⟩ := run_inv h
  refine ⟨⟨hi.len, hi.holds⟩, fun lib a hlib ha hgive => ?_⟩
  cases a with
  | fresh k vs =>
    cases vs with
    | nil => exact ⟨_, rfl⟩
    | cons v vs =>
      have hw := bytes_pos k
      have hlegal : Legal live (.malloc ((v :: vs).length * width k)) := by
        have := Nat.mul_le_mul (Nat.le_of_lt ha.2) hw.2
        rw [width_bytes]
        exact Nat.le_trans this (by decide)
      have hp := ((C151 _ hi.reach).2 lib _ hlib hlegal).2.2 (fun k _ => hgive k)
        (Nat.ne_of_gt (Nat.mul_pos (by simp) (by rw [width_bytes]; exact hw.1)))
      simp only [run] at hp
      simp only [act, fresh]
      cases hq : (malloc d.pool ((v :: vs).length * width k) lib).2 with
      | none => exact absurd hq hp
      | some q => exact ⟨_, rfl⟩
  | push i v =>
    obtain ⟨k, l, hc, hv, hlen⟩ := ha
    have hic : i < d.seqs.length := hi.len ▸ get_lt hc
    have hs : d.seqs[i]? = some d.seqs[i] := List.getElem?_eq_getElem hic
    generalize d.seqs[i] = s at hs
    have hf := hi.fine i s hs
    have hsz : s.size = l.length := (hi.holds i s _ hs hc).2.1
    simp only [act, hs]
    by_cases hfull : s.size ≥ s.cap
    · have hb : s.cap < 2 ^ 31 := by omega
      have hl := larger_ok s.cap hb
      have hw := bytes_pos s.kind
      rw [room_eq d.pool d.mem s lib (none_iff hf) hfull hb]
      have hnew : larger s.cap * bytes s.kind ≤ 2 ^ 62 := by
        have := Nat.mul_le_mul (Nat.le_of_lt hl.2) hw.2
        exact Nat.le_trans this (by decide)
      have hlegal : Legal live (.realloc s.ptr (s.cap * bytes s.kind) (larger s.cap * bytes s.kind)) := by
        cases hp : s.ptr with
        | none => exact hnew
        | some a => exact ⟨(hf.2.2.2 a hp).2, hnew⟩
      have hp := ((C151 _ hi.reach).2 lib _ hlib hlegal).2.2 (fun k _ => hgive k) (Nat.ne_of_gt (Nat.mul_pos (by omega) hw.1))
      simp only [run] at hp
      simp only [put, width_bytes]
      cases hq : (realloc d.pool d.mem s.ptr (s.cap * bytes s.kind) (larger s.cap * bytes s.kind) lib).2.2 with
      | none => exact absurd hq hp
      | some q => exact ⟨_, rfl⟩
    · have hroom : room d.pool d.mem s lib = (d.pool, d.mem, s) := by
        simp only [room]
        split <;> simp only [roomArray, roomObject] <;> rw [if_neg hfull]
      rw [hroom]
      simp only [put]
      cases hq : s.ptr with
      | none => have := hf.2.2.1 hq; omega
      | some q => exact ⟨_, rfl⟩

/-! ### Cases -/

def e0 : Doc := Doc.new fun _ => 0
def e1 : Doc := (act e0 (libAt 4096) (.fresh .array [List.replicate 16 7])).getD e0
def e2 : Doc := (act e1 (fun _ => none) (.fresh .text [[65], [0]])).getD e0
def e3 : Doc := (act e2 (fun _ => none) (.push 0 (List.replicate 16 8))).getD e0

/-- Non-vacuity: an array, a string behind it, and an element that makes the array move behind the string. -/
example : e3.seqs = [⟨.array, some 4144, 2, 2⟩, ⟨.text, some 4136, 2, 2⟩] ∧ e3.mem 4144 = 7 ∧ e3.mem 4160 = 8 ∧ e3.mem 4136 = 65 := by decide +kernel

example : Run e3 [(.array, [List.replicate 16 7, List.replicate 16 8]), (.text, [[65], [0]])] := by
  have l0 : Library [] (libAt 4096) := by
    intro n b h
    simp only [libAt] at h
    split at h
    · cases h; exact ⟨by decide, by decide, by omega, by simp⟩
    · cases h
  have none_ok : ∀ g, Library g (fun _ => none) := fun g n b h => by simp at h
  have r1 : Run e1 [(.array, [List.replicate 16 7])] := .step e0 [] _ (.fresh .array [List.replicate 16 7]) e1 (.new _) l0 ⟨by decide, by decide⟩ rfl
  have r2 : Run e2 [(.array, [List.replicate 16 7]), (.text, [[65], [0]])] := .step e1 _ _ (.fresh .text [[65], [0]]) e2 r1 (none_ok _) ⟨by decide, by decide⟩ rfl
  exact .step e2 _ _ (.push 0 (List.replicate 16 8)) e3 r2 (none_ok _) ⟨_, _, rfl, by decide, by decide⟩ rfl

/-- The bound on the number of elements is needed: a capacity of two thirds of 2^32 becomes smaller, and PushBack would write behind the block. -/
example : larger 0 = 16 ∧ larger 16 = 24 := by decide
example : larger 2863311531 = 1 := by decide +kernel

end Verif.JsonGrow
