import Verif.Model.JsonBuffer
import Verif.Props.Itoa
/-
C146: JSON is written into memory without leaving it.
-/
namespace Verif.JsonBuffer
open Verif.Ipc (Str Json)
open Verif.JsonText (Ev)

namespace Spec

/-- The buffer holds a text: it is at the start of the memory, and ends at the top. -/
def Holds (s : Stk) (t : Str) : Prop := s.top = t.length ∧ ∃ rest, s.mem = t.map some ++ rest

/-- An event that the document model can make: an integer of 64 bits, bytes. -/
def Sane : Ev → Prop
  | .num i => -2 ^ 63 ≤ i ∧ i < 2 ^ 64
  | .str t => (∀ c ∈ t, c.toNat < 256) ∧ t.length < 2 ^ 32
  | _ => True

/-- A string for which the room is computed without wrap-around. -/
def Short : Ev → Prop
  | .str t => 2 + t.length * 6 < 2 ^ 32
  | _ => True

end Spec

open Spec

/-! ## The memory -/

theorem Holds.le {s : Stk} {t : Str} (h : Holds s t) : t.length ≤ s.cap := by
  obtain ⟨_, r, e⟩ := h
  rw [Stk.cap, e]; simp

theorem reserve_holds (s : Stk) (t : Str) (n : Nat) (h : Holds s t) :
    Holds (s.reserve n) t ∧ t.length + n ≤ (s.reserve n).cap ∧ (s.reserve n).top = t.length := by
  have hl := Holds.le h
  obtain ⟨ht, r, e⟩ := h
  simp only [Stk.reserve]
  split
  · next hc =>
    have hg : s.top + n ≤ s.grown n := Nat.le_max_right _ _
    have hk : s.cap ≤ s.grown n := by omega
    refine ⟨⟨ht, r ++ List.replicate (s.grown n - s.cap) none, ?_⟩, ?_, ht⟩
    · simp only [Stk.resize]
      rw [List.take_of_length_le (by simpa [Stk.cap] using hk), e, List.append_assoc]
    · simp only [Stk.resize, Stk.cap, List.length_append, List.length_take, List.length_replicate]
      simp only [Stk.cap] at hk hg
      omega
  · next hc => exact ⟨⟨ht, r, e⟩, by omega, ht⟩

theorem set_append {α : Type} (a : List α) (x y : α) (r : List α) : (a ++ x :: r).set a.length y = a ++ y :: r := by
  induction a with
  | nil => rfl
  | cons b a ih => simp [ih]

theorem putUnsafe_holds (s : Stk) (t : Str) (c : Char) (h : Holds s t) (hc : t.length < s.cap) :
    ∃ s', s.putUnsafe c = some s' ∧ Holds s' (t ++ [c]) ∧ s'.cap = s.cap := by
  obtain ⟨ht, r, e⟩ := h
  cases r with
  | nil => simp [Stk.cap, e] at hc
  | cons x r =>
    refine ⟨⟨s.mem.set s.top (some c), s.top + 1, s.live, s.init⟩, ?_, ⟨by simp [ht], r, ?_⟩, by simp [Stk.cap]⟩
    · simp only [Stk.putUnsafe, Stk.pushUnsafe, if_pos (show s.top + 1 ≤ s.cap by omega), Option.bind_some, Stk.store]
      rw [if_pos (show s.top < Stk.cap ⟨s.mem, s.top + 1, s.live, s.init⟩ from by show s.top < s.cap; omega)]
    · show s.mem.set s.top (some c) = _
      have : s.top = (t.map some).length := by simp [ht]
      rw [e, this, set_append]
      simp

theorem putUnsafe_full (s : Stk) (c : Char) (h : s.cap ≤ s.top) : s.putUnsafe c = none := by
  simp only [Stk.putUnsafe, Stk.pushUnsafe, if_neg (show ¬ s.top + 1 ≤ s.cap by omega), Option.bind_none]

theorem putAll_holds (l : Str) (s : Stk) (t : Str) (h : Holds s t) (hc : t.length + l.length ≤ s.cap) :
    ∃ s', s.putAll l = some s' ∧ Holds s' (t ++ l) ∧ s'.cap = s.cap := by
  induction l generalizing s t with
  | nil => exact ⟨s, rfl, by simpa using h, rfl⟩
  | cons c l ih =>
    simp only [List.length_cons] at hc
    obtain ⟨s1, h1, h2, h3⟩ := putUnsafe_holds s t c h (by omega)
    obtain ⟨s2, h4, h5, h6⟩ := ih s1 (t ++ [c]) h2 (by simp; omega)
    exact ⟨s2, by simp [Stk.putAll, h1, h4], by simpa using h5, by omega⟩

theorem put_holds (s : Stk) (t : Str) (c : Char) (h : Holds s t) : ∃ s', s.put c = some s' ∧ Holds s' (t ++ [c]) := by
  obtain ⟨h1, h2, h3⟩ := reserve_holds s t 1 h
  obtain ⟨s', h4, h5, _⟩ := putUnsafe_holds (s.reserve 1) t c h1 (by omega)
  refine ⟨s', ?_, h5⟩
  rw [← h4]
  simp only [Stk.put, Stk.push, Stk.putUnsafe]
  rw [h3, h.1]

theorem word_holds (s : Stk) (t l : Str) (h : Holds s t) : ∃ s', s.word l = some s' ∧ Holds s' (t ++ l) := by
  obtain ⟨h1, h2, _⟩ := reserve_holds s t l.length h
  obtain ⟨s', h3, h4, _⟩ := putAll_holds l _ t h1 h2
  exact ⟨s', h3, h4⟩

/-- Characters stored from a place on. -/
theorem storeAll_ok (l : Str) (s : Stk) (a : List (Option Char)) (r : List (Option Char)) (he : s.mem = a ++ r) (hr : l.length ≤ r.length) :
    ∃ s', s.storeAll a.length l = some s' ∧ s'.mem = a ++ (l.map some ++ r.drop l.length) ∧ s'.top = s.top := by
  induction l generalizing s a r with
  | nil => exact ⟨s, rfl, by simpa using he, rfl⟩
  | cons c l ih =>
    cases r with
    | nil => simp at hr
    | cons x r =>
      simp only [List.length_cons] at hr
      obtain ⟨s', h1, h2, h3⟩ := ih ⟨s.mem.set a.length (some c), s.top, s.live, s.init⟩ (a ++ [some c]) r
        (by show s.mem.set a.length (some c) = _; rw [he, set_append]; simp) (by omega)
      refine ⟨s', ?_, by simpa using h2, h3⟩
      simp only [Stk.storeAll, Stk.store]
      rw [if_pos (by simp [Stk.cap, he])]
      simp only [Option.bind_some]
      simpa using h1

/-- Push, print, and pop what was not used. -/
theorem print_holds (s : Stk) (t l : Str) (room : Nat) (h : Holds s t) (hl : l.length ≤ room) (hr : room < 2 ^ 64) :
    ∃ s', s.print room (some l) = some s' ∧ Holds s' (t ++ l) := by
  obtain ⟨⟨_, r, e⟩, h2, h3⟩ := reserve_holds s t room h
  have hrl : room ≤ r.length := by
    simp only [Stk.cap, e, List.length_append, List.length_map] at h2; omega
  obtain ⟨s', h4, h5, h6⟩ := storeAll_ok l ⟨(s.reserve room).mem, (s.reserve room).top + room, (s.reserve room).live, (s.reserve room).init⟩
    (t.map some) r e (by omega)
  have h6 : s'.top = t.length + room := by rw [h6]; show (s.reserve room).top + room = _; rw [h3]
  refine ⟨⟨s'.mem, s'.top - (room - l.length), s'.live, s'.init⟩, ?_, ⟨?_, r.drop l.length, ?_⟩⟩
  · simp only [Stk.print, Stk.push, Stk.pushUnsafe]
    rw [if_pos (by omega)]
    simp only [Option.bind_some]
    rw [show s.top = (t.map some).length by simp [h.1], h4]
    simp only [Option.bind_some]
    have em : (2 ^ 64 + room - l.length) % 2 ^ 64 = room - l.length := by
      have : 2 ^ 64 + room - l.length = (room - l.length) + 2 ^ 64 := by omega
      rw [this, Nat.add_mod_right, Nat.mod_eq_of_lt (by omega)]
    rw [em, Stk.pop, if_pos (by omega)]
  · show s'.top - _ = _
    rw [h6, List.length_append]; omega
  · show s'.mem = _
    rw [h5, List.map_append, List.append_assoc]

theorem number_holds (s : Stk) (t : Str) (i : Int) (h : Holds s t) (h0 : -2 ^ 63 ≤ i) (h1 : i < 2 ^ 64) :
    ∃ s', s.number i = some s' ∧ Holds s' (t ++ JsonText.decimal i) := by
  have len := Itoa.C145
  simp only [Stk.number]
  split
  · next hc =>
    rw [(Itoa.C145_decimal i).2.1 hc.1 hc.2]
    obtain ⟨l, e, _, k⟩ := len.2.1 i hc.1 hc.2
    rw [(Itoa.C145_decimal i).2.1 hc.1 hc.2] at e
    injection e with e
    exact print_holds s t _ 11 h (by rw [e]; exact k) (by omega)
  · split
    · next hc =>
      rw [(Itoa.C145_decimal i).1 hc.1 hc.2]
      obtain ⟨l, e, _, k⟩ := len.1 i.toNat (by omega)
      rw [(Itoa.C145_decimal i).1 hc.1 hc.2] at e
      injection e with e
      exact print_holds s t _ 10 h (by rw [e]; exact k) (by omega)
    · split
      · next hc =>
        rw [(Itoa.C145_decimal i).2.2.2 hc.1 hc.2]
        obtain ⟨l, e, _, k⟩ := len.2.2.2 i hc.1 hc.2
        rw [(Itoa.C145_decimal i).2.2.2 hc.1 hc.2] at e
        injection e with e
        exact print_holds s t _ 21 h (by rw [e]; exact k) (by omega)
      · next hc =>
        have hp : 0 ≤ i := by omega
        have em : (i % 2 ^ 64).toNat = i.toNat := by rw [Int.emod_eq_of_lt hp h1]
        rw [em, (Itoa.C145_decimal i).2.2.1 hp h1]
        obtain ⟨l, e, _, k⟩ := len.2.2.1 i.toNat (by omega)
        rw [(Itoa.C145_decimal i).2.2.1 hp h1] at e
        injection e with e
        exact print_holds s t _ 20 h (by rw [e]; exact k) (by omega)

/-! ## Strings -/

/-- The tables say what Verif.JsonText says, and never more than six characters. -/
theorem escaped_eq (c : Char) (h : c.toNat < 256) : escaped c = some (JsonText.escChar c) ∧ (JsonText.escChar c).length ≤ 6 := by
  have : ∀ n : Fin 256, escaped (Char.ofNat n.1) = some (JsonText.escChar (Char.ofNat n.1)) ∧
      (JsonText.escChar (Char.ofNat n.1)).length ≤ 6 := by decide +kernel
  have := this ⟨c.toNat, h⟩
  simpa using this

theorem flatMap_length_le (t : Str) (h : ∀ c ∈ t, c.toNat < 256) : (t.flatMap JsonText.escChar).length ≤ t.length * 6 := by
  induction t with
  | nil => simp
  | cons c t ih =>
    have := (escaped_eq c (h c (by simp))).2
    have := ih (fun x hx => h x (by simp [hx]))
    simp only [List.flatMap_cons, List.length_append, List.length_cons]
    omega

theorem chars_holds (l : Str) (s : Stk) (t : Str) (h : Holds s t) (hb : ∀ c ∈ l, c.toNat < 256)
    (hc : t.length + (l.flatMap JsonText.escChar).length ≤ s.cap) :
    ∃ s', s.chars l = some s' ∧ Holds s' (t ++ l.flatMap JsonText.escChar) ∧ s'.cap = s.cap := by
  induction l generalizing s t with
  | nil => exact ⟨s, rfl, by simpa using h, rfl⟩
  | cons c l ih =>
    simp only [List.flatMap_cons, List.length_append] at hc
    obtain ⟨s1, h1, h2, h3⟩ := putAll_holds (JsonText.escChar c) s t h (by omega)
    obtain ⟨s2, h4, h5, h6⟩ := ih s1 _ h2 (fun x hx => hb x (by simp [hx])) (by rw [List.length_append]; omega)
    refine ⟨s2, ?_, by simpa using h5, by omega⟩
    simp only [Stk.chars, (escaped_eq c (hb c (by simp))).1, Option.bind_some, h1, h4]

theorem string_holds (s : Stk) (t l : Str) (h : Holds s t) (hb : ∀ c ∈ l, c.toNat < 256) (hs : 2 + l.length * 6 < 2 ^ 32) :
    ∃ s', s.string l = some s' ∧ Holds s' (t ++ JsonText.quoted l) := by
  have hlen := flatMap_length_le l hb
  have hm : (2 + l.length * 6) % 2 ^ 32 = 2 + l.length * 6 := Nat.mod_eq_of_lt hs
  obtain ⟨h1, h2, _⟩ := reserve_holds s t (2 + l.length * 6) h
  obtain ⟨s1, h3, h4, h5⟩ := putUnsafe_holds _ t '"' h1 (by omega)
  obtain ⟨s2, h6, h7, h8⟩ := chars_holds l s1 _ h4 hb (by rw [List.length_append, List.length_singleton]; omega)
  obtain ⟨s3, h9, h10, _⟩ := putUnsafe_holds s2 _ '"' h7 (by simp only [List.length_append, List.length_cons, List.length_nil]; omega)
  refine ⟨s3, ?_, ?_⟩
  · simp only [Stk.string, hm, h3, Option.bind_some, h6, h9]
  · simpa [JsonText.quoted] using h10

/-! ## The writer -/

/-- The writer on memory and the writer of Verif.JsonText agree. -/
structure Agree (w : Wr) (v : JsonText.Wr) : Prop where
  holds : Holds w.stk v.out
  levels : w.levels = v.levels
  root : w.root = v.root

theorem sepTo_holds (s : Stk) (t : Str) (n : Nat) (b : Bool) (h : Holds s t) :
    ∃ s', sepTo s n b = some s' ∧ Holds s' (t ++ JsonText.sep n b) := by
  by_cases hn : n = 0
  · subst hn; exact ⟨s, rfl, by simpa [JsonText.sep] using h⟩
  · cases b
    · have hp : n > 0 := by omega
      by_cases h2 : n % 2 = 0
      · obtain ⟨s', h3, h4⟩ := put_holds s t ',' h
        exact ⟨s', by simp [sepTo, hp, h2, h3], by simpa [JsonText.sep, hn, h2] using h4⟩
      · obtain ⟨s', h3, h4⟩ := put_holds s t ':' h
        exact ⟨s', by simp [sepTo, hp, h2, h3], by simpa [JsonText.sep, hn, h2] using h4⟩
    · obtain ⟨s', h3, h4⟩ := put_holds s t ',' h
      exact ⟨s', by simp [sepTo, show n > 0 by omega, h3], by simpa [JsonText.sep, hn] using h4⟩

theorem pre_agree (w : Wr) (v : JsonText.Wr) (b : Bool) (h : Agree w v) (hn : (v.pre b).bad = false) :
    ∃ w', w.pre b = some w' ∧ Agree w' (v.pre b) := by
  obtain ⟨hh, hl, hr⟩ := h
  cases ev : v.levels with
  | nil =>
    rw [ev] at hl
    simp only [JsonText.Wr.pre, ev] at hn ⊢
    split at hn
    · cases hn
    · next hr' =>
      rw [if_neg hr']
      refine ⟨⟨w.stk, [], true⟩, ?_, ⟨hh, by simp, rfl⟩⟩
      simp only [Wr.pre, hl]
      rw [if_neg (by rw [hr]; exact hr')]
  | cons p l =>
    obtain ⟨n, a⟩ := p
    rw [ev] at hl
    simp only [JsonText.Wr.pre, ev] at hn ⊢
    split at hn
    · cases hn
    · next hc =>
      rw [if_neg hc]
      obtain ⟨s', h1, h2⟩ := sepTo_holds w.stk v.out n a hh
      refine ⟨⟨s', (n + 1, a) :: l, w.root⟩, ?_, ⟨h2, rfl, hr⟩⟩
      simp only [Wr.pre, hl, h1, Option.bind_some]
      rw [if_neg hc]

theorem on_agree (w : Wr) (v : JsonText.Wr) (f : Stk → Option Stk) (l : Str) (h : Agree w v)
    (hf : ∀ s t, Holds s t → ∃ s', f s = some s' ∧ Holds s' (t ++ l)) : ∃ w', w.on f = some w' ∧ Agree w' (v.put l) := by
  obtain ⟨s', h1, h2⟩ := hf w.stk v.out h.holds
  exact ⟨⟨s', w.levels, w.root⟩, by simp [Wr.on, h1], ⟨h2, h.levels, h.root⟩⟩

theorem pop_agree (w : Wr) (v : JsonText.Wr) (b : Bool) (h : Agree w v) (hn : (v.pop b).bad = false) :
    ∃ w', w.pop b = some w' ∧ Agree w' (v.pop b) := by
  obtain ⟨hh, hl, hr⟩ := h
  cases ev : v.levels with
  | nil => simp [JsonText.Wr.pop, ev] at hn
  | cons p l =>
    obtain ⟨n, a⟩ := p
    rw [ev] at hl
    simp only [JsonText.Wr.pop, ev] at hn ⊢
    split at hn
    · next hc =>
      rw [if_pos hc]
      exact ⟨⟨w.stk, l, w.root⟩, by simp only [Wr.pop, hl]; rw [if_pos hc], ⟨hh, rfl, hr⟩⟩
    · cases hn

theorem put_bad (v : JsonText.Wr) (l : Str) : (v.put l).bad = v.bad := rfl
theorem push_bad (v : JsonText.Wr) (b : Bool) : (v.push b).bad = v.bad := rfl

/-- Double numbers need at most 25 characters. -/
def DOk (D : Nat → Option Str) : Prop := ∀ d l, D d = some l → l.length ≤ 25

theorem step_agree (D : Nat → Option Str) (hD : DOk D) (w : Wr) (v : JsonText.Wr) (e : Ev) (h : Agree w v) (hb : v.bad = false)
    (hs : Sane e) (hsh : Short e) (hn : (JsonText.step D v e).bad = false) : ∃ w', step D w e = some w' ∧ Agree w' (JsonText.step D v e) := by
  rw [JsonText.step_ok D v e hb] at hn ⊢
  have val : ∀ (b : Bool) (f : Stk → Option Stk) (l : Str), ((v.pre b).put l).bad = false →
      (∀ s t, Holds s t → ∃ s', f s = some s' ∧ Holds s' (t ++ l)) →
      ∃ w', ((w.pre b).bind fun w => w.on f) = some w' ∧ Agree w' ((v.pre b).put l) := by
    intro b f l hn hf
    obtain ⟨w1, h1, h2⟩ := pre_agree w v b h hn
    obtain ⟨w2, h3, h4⟩ := on_agree w1 _ f l h2 hf
    exact ⟨w2, by simp [h1, h3], h4⟩
  have opn : ∀ (a : Bool) (c : Char), (((v.pre false).push a).put [c]).bad = false →
      ∃ w', ((w.pre false).bind fun w => (w.push a).on fun s => s.put c) = some w' ∧ Agree w' (((v.pre false).push a).put [c]) := by
    intro a c hn
    obtain ⟨w1, h1, h2⟩ := pre_agree w v false h hn
    have h2' : Agree (w1.push a) ((v.pre false).push a) := ⟨h2.holds, by simp [Wr.push, JsonText.Wr.push, h2.levels], h2.root⟩
    obtain ⟨w2, h3, h4⟩ := on_agree _ _ (fun s => s.put c) [c] h2' (fun s t => put_holds s t c)
    exact ⟨w2, by simp [h1, h3], h4⟩
  have cls : ∀ (a : Bool) (c : Char), ((v.pop a).put [c]).bad = false →
      ∃ w', ((w.pop a).bind fun w => w.on fun s => s.put c) = some w' ∧ Agree w' ((v.pop a).put [c]) := by
    intro a c hn
    obtain ⟨w1, h1, h2⟩ := pop_agree w v a h hn
    obtain ⟨w2, h3, h4⟩ := on_agree _ _ (fun s => s.put c) [c] h2 (fun s t => put_holds s t c)
    exact ⟨w2, by simp [h1, h3], h4⟩
  cases e with
  | null => exact val false _ _ hn (fun s t => word_holds s t _)
  | bool b => cases b <;> exact val false _ _ hn (fun s t => word_holds s t _)
  | num i => exact val false _ _ hn (fun s t ht => number_holds s t i ht hs.1 hs.2)
  | dbl d =>
    refine val false _ _ hn (fun s t ht => ?_)
    cases ed : D d with
    | none => exact ⟨s, rfl, by simpa using ht⟩
    | some l => exact print_holds s t l 25 ht (hD d l ed) (by omega)
  | str l => exact val true _ _ hn (fun s t ht => string_holds s t l ht hs.1 hsh)
  | startObj => exact opn false '{' hn
  | endObj => exact cls false '}' hn
  | startArr => exact opn true '[' hn
  | endArr => exact cls true ']' hn

theorem bad_stays (D : Nat → Option Str) (l : List Ev) (v : JsonText.Wr) (h : v.bad = true) : (JsonText.run D v l).bad = true := by
  induction l generalizing v with
  | nil => exact h
  | cons e l ih => rw [JsonText.run_cons]; refine ih _ ?_; simp [JsonText.step, h]

theorem run_agree (D : Nat → Option Str) (hD : DOk D) (l : List Ev) (w : Wr) (v : JsonText.Wr) (h : Agree w v) (hb : v.bad = false)
    (hs : ∀ e ∈ l, Sane e ∧ Short e) (hn : (JsonText.run D v l).bad = false) :
    ∃ w', run D w l = some w' ∧ Agree w' (JsonText.run D v l) := by
  induction l generalizing w v with
  | nil => exact ⟨w, rfl, h⟩
  | cons e l ih =>
    rw [JsonText.run_cons] at hn ⊢
    have hb' : (JsonText.step D v e).bad = false := by
      cases hx : (JsonText.step D v e).bad with
      | false => rfl
      | true => rw [bad_stays D l _ hx] at hn; cases hn
    obtain ⟨w1, h1, h2⟩ := step_agree D hD w v e h hb (hs e (by simp)).1 (hs e (by simp)).2 hb'
    obtain ⟨w2, h3, h4⟩ := ih w1 _ h2 hb' (fun e he => hs e (by simp [he])) hn
    exact ⟨w2, by simp [run, h1, h3], h4⟩

theorem upTo_prefix (D : Nat → Option Str) (l : List Ev) : ∃ r, l = JsonText.upTo D l ++ r := by
  induction l with
  | nil => exact ⟨[], rfl⟩
  | cons e l ih =>
    obtain ⟨r, hr⟩ := ih
    cases e <;> simp only [JsonText.upTo]
    case dbl d =>
      split
      · exact ⟨l, rfl⟩
      · exact ⟨r, by rw [List.cons_append, ← hr]⟩
    all_goals exact ⟨r, by rw [List.cons_append, ← hr]⟩

theorem events_good (D : Nat → Option Str) (j : Json) : (JsonText.run D {} (JsonText.upTo D (JsonText.events j))).bad = false := by
  have e := JsonText.run_events D j {} rfl (by cases j <;> rfl)
  have hg : (JsonText.run D {} (JsonText.events j)).bad = false := by rw [e]; cases j <;> rfl
  obtain ⟨r, hr⟩ := upTo_prefix D (JsonText.events j)
  rw [hr, JsonText.run_append] at hg
  cases hx : (JsonText.run D {} (JsonText.upTo D (JsonText.events j))).bad with
  | false => rfl
  | true => rw [bad_stays D r _ hx] at hg; cases hg

theorem clear_holds (s : Stk) : Holds s.clear [] := ⟨rfl, s.mem, rfl⟩

/-! ## NUL characters -/

theorem cstr_text (t : Str) (r : List (Option Char)) (h : '\x00' ∉ t) : cstr (t.map some ++ some '\x00' :: r) = some t := by
  induction t with
  | nil => simp [cstr]
  | cons c t ih =>
    simp only [List.mem_cons, not_or] at h
    simp [cstr, ih h.2, Ne.symm h.1]

theorem getString_holds (s : Stk) (t : Str) (h : Holds s t) (hz : '\x00' ∉ t) : ∃ s', s.getString = some (s', t) ∧ Holds s' t := by
  obtain ⟨s1, h1, ⟨h2, r, h3⟩⟩ := put_holds s t '\x00' h
  refine ⟨⟨s1.mem, s1.top - 1, s1.live, s1.init⟩, ?_, ⟨?_, some '\x00' :: r, by simpa using h3⟩⟩
  · simp only [Stk.getString, h1, Option.bind_some, Stk.pop]
    rw [if_pos (by rw [h2]; simp)]
    simp only [Option.bind_some]
    have : s1.mem = t.map some ++ some '\x00' :: r := by simpa using h3
    rw [this, cstr_text t r hz]
    rfl
  · show s1.top - 1 = _
    rw [h2]; simp

theorem esc_noNul (c : Char) (h : c.toNat < 256) : '\x00' ∉ JsonText.escChar c := by
  have : ∀ n : Fin 256, '\x00' ∉ JsonText.escChar (Char.ofNat n.1) := by decide +kernel
  have := this ⟨c.toNat, h⟩
  simpa using this

theorem decimal_noNul (i : Int) : '\x00' ∉ JsonText.decimal i := by
  have hd : '\x00' ∉ Receiver.dec i.natAbs := by
    intro hm
    obtain ⟨d, hd, e⟩ := List.mem_map.1 hm
    have h1 := Itoa.digitChar_nat d (Receiver.digitsF_lt _ _ d hd)
    rw [e] at h1
    simp at h1
    omega
  simp only [JsonText.decimal]
  split
  · simp [hd]
  · exact hd

theorem sep_noNul (n : Nat) (b : Bool) : '\x00' ∉ JsonText.sep n b := by
  simp only [JsonText.sep]; split <;> (try split) <;> (try split) <;> simp

theorem pre_noNul (v : JsonText.Wr) (b : Bool) (h : '\x00' ∉ v.out) : '\x00' ∉ (v.pre b).out := by
  simp only [JsonText.Wr.pre]
  split
  · split <;> exact h
  · split
    · exact h
    · next n a l _ _ => simp only [List.mem_append, not_or]; exact ⟨h, sep_noNul n a⟩

theorem pop_noNul (v : JsonText.Wr) (b : Bool) (h : '\x00' ∉ v.out) : '\x00' ∉ (v.pop b).out := by
  simp only [JsonText.Wr.pop]
  split
  · exact h
  · split <;> exact h

theorem put_noNul (v : JsonText.Wr) (l : Str) (h : '\x00' ∉ v.out) (hl : '\x00' ∉ l) : '\x00' ∉ (v.put l).out := by
  simp only [JsonText.Wr.put, List.mem_append, not_or]; exact ⟨h, hl⟩

theorem step_noNul (D : Nat → Option Str) (hD : ∀ d l, D d = some l → '\x00' ∉ l) (v : JsonText.Wr) (e : Ev) (he : Sane e)
    (h : '\x00' ∉ v.out) : '\x00' ∉ (JsonText.step D v e).out := by
  by_cases hb : v.bad = true
  · simp only [JsonText.step, hb, if_true]; exact h
  · rw [JsonText.step_ok D v e (by simpa using hb)]
    cases e with
    | null => exact put_noNul _ _ (pre_noNul v false h) (by decide)
    | bool b => cases b <;> exact put_noNul _ _ (pre_noNul v false h) (by decide)
    | num i => exact put_noNul _ _ (pre_noNul v false h) (decimal_noNul i)
    | dbl d =>
      refine put_noNul _ _ (pre_noNul v false h) ?_
      cases ed : D d with
      | none => simp
      | some l => exact hD d l ed
    | str t =>
      refine put_noNul _ _ (pre_noNul v true h) ?_
      simp only [JsonText.quoted, List.cons_append, List.mem_cons, List.mem_append, List.mem_flatMap, List.not_mem_nil, or_false, not_or,
        not_exists, not_and]
      exact ⟨by decide, fun c hc => esc_noNul c (he.1 c hc), by decide⟩
    | startObj => exact put_noNul _ _ (pre_noNul v false h) (by decide)
    | startArr => exact put_noNul _ _ (pre_noNul v false h) (by decide)
    | endObj => exact put_noNul _ _ (pop_noNul v false h) (by decide)
    | endArr => exact put_noNul _ _ (pop_noNul v true h) (by decide)

theorem run_noNul (D : Nat → Option Str) (hD : ∀ d l, D d = some l → '\x00' ∉ l) (l : List Ev) (v : JsonText.Wr) (he : ∀ e ∈ l, Sane e)
    (h : '\x00' ∉ v.out) : '\x00' ∉ (JsonText.run D v l).out := by
  induction l generalizing v with
  | nil => exact h
  | cons e l ih => exact ih _ (fun x hx => he x (by simp [hx])) (step_noNul D hD v e (he e (by simp)) h)

theorem upTo_mem (D : Nat → Option Str) (l : List Ev) (e : Ev) (h : e ∈ JsonText.upTo D l) : e ∈ l := by
  obtain ⟨r, hr⟩ := upTo_prefix D l
  rw [hr]; exact List.mem_append_left _ h

/-! ## The property -/

/-- What `dtoa` has to promise: no more than 25 characters, no NUL among them. -/
def Dtoa (D : Nat → Option Str) : Prop := ∀ d l, D d = some l → l.length ≤ 25 ∧ '\x00' ∉ l

/-- **C146** (full statement) Whatever the buffer held before, encoding a document fails no assertion, writes only into
allocated memory, and gives the text of the document. -/
def C146_statement : Prop :=
  ∀ (D : Nat → Option Str), Dtoa D → ∀ (j : Json), (∀ e ∈ JsonText.events j, Sane e) → ∀ s : Stk,
    ∃ s', encode D s j = some (s', JsonText.write D j)

/-- It holds if no string is so long that the room for it wraps around: 715827882 bytes are allowed. -/
theorem C146_partial (D : Nat → Option Str) (hD : Dtoa D) (j : Json) (hs : ∀ e ∈ JsonText.events j, Sane e)
    (hsh : ∀ e ∈ JsonText.events j, Short e) (s : Stk) : ∃ s', encode D s j = some (s', JsonText.write D j) := by
  obtain ⟨w, h1, h2⟩ := run_agree D (fun d l h => (hD d l h).1) (JsonText.upTo D (JsonText.events j)) ⟨s.clear, [], false⟩ {}
    ⟨clear_holds s, rfl, rfl⟩ rfl (fun e he => ⟨hs e (upTo_mem D _ e he), hsh e (upTo_mem D _ e he)⟩) (events_good D j)
  obtain ⟨s', h3, _⟩ := getString_holds w.stk _ h2.holds
    (run_noNul D (fun d l h => (hD d l h).2) _ {} (fun e he => hs e (upTo_mem D _ e he)) (by simp))
  exact ⟨s', by simp only [encode, accept, h1, Option.map_some, Option.bind_some]; exact h3⟩

theorem short_iff (t : Str) : Short (.str t) ↔ t.length ≤ 715827882 := by
  simp only [Short]; omega

/-- Two messages after each other in one buffer, the second shorter; an escape, a NUL, and both ends of the integers. -/
def exDoc : Json := .obj [("msg".toList, .str "a\"\n\x00".toList), ("v".toList, .arr [.num (-9223372036854775808), .num 18446744073709551615, .null, .bool true])]

example : (encode (fun _ => none) {} exDoc).map (·.2) =
    some "{\"msg\":\"a\\\"\\n\\u0000\",\"v\":[-9223372036854775808,18446744073709551615,null,true]}".toList := by decide +kernel
example : ((encode (fun _ => none) {} exDoc).bind fun r => encode (fun _ => none) r.1 (.arr [.num 7, .obj []])).map (fun r => (r.2, r.1.cap)) =
    some ("[7,{}]".toList, 256) := by decide +kernel
/-- A small buffer grows. -/
example : (encode (fun _ => none) { init := 16 } exDoc).map (·.1.cap) = some 81 := by decide +kernel

theorem putUnsafe_top (s s' : Stk) (c : Char) (h : s.putUnsafe c = some s') : s'.top = s.top + 1 ∧ s'.cap = s.cap := by
  simp only [Stk.putUnsafe, Stk.pushUnsafe] at h
  split at h
  · simp only [Option.bind_some, Stk.store] at h
    split at h
    · injection h with h; subst h; exact ⟨rfl, by simp [Stk.cap]⟩
    · cases h
  · cases h

theorem putUnsafe_le (s s' : Stk) (c : Char) (h : s.putUnsafe c = some s') : s'.top ≤ s'.cap := by
  simp only [Stk.putUnsafe, Stk.pushUnsafe] at h
  split at h
  · next hc =>
    simp only [Option.bind_some, Stk.store] at h
    split at h
    · injection h with h; subst h; simpa [Stk.cap] using hc
    · cases h
  · cases h

/-- More plain characters than there is room. -/
theorem chars_full (n : Nat) (s : Stk) (ht : s.top ≤ s.cap) (h : s.cap < s.top + n) : s.chars (List.replicate n 'a') = none := by
  induction n generalizing s with
  | zero => omega
  | succ n ih =>
    have e : escaped 'a' = some ['a'] := by decide
    rw [List.replicate_succ]
    simp only [Stk.chars, e, Option.bind_some, Stk.putAll]
    cases hp : s.putUnsafe 'a' with
    | none => rfl
    | some s1 =>
      obtain ⟨h1, h2⟩ := putUnsafe_top s s1 'a' hp
      have h3 := putUnsafe_le s s1 'a' hp
      simp only [Option.bind_some]
      exact ih s1 h3 (by omega)

/-- A string one byte longer in a new buffer: room for four characters is reserved, and the memory is left after 256. -/
theorem C146_long (n : Nat) (hn : n = 715827883) : encode (fun _ => none) {} (.str (List.replicate n 'a')) = none := by
  have hm : (2 + (List.replicate n 'a').length * 6) % 2 ^ 32 = 4 := by rw [List.length_replicate, hn]
  have hs : Stk.string {} (List.replicate n 'a') = none := by
    simp only [Stk.string, hm]
    obtain ⟨h1, h2, h3⟩ := reserve_holds {} [] 4 ⟨rfl, [], rfl⟩
    have hc : (Stk.reserve {} 4).cap = 256 := by decide +kernel
    obtain ⟨s1, h4, h5, h6⟩ := putUnsafe_holds _ [] '"' h1 (by rw [hc]; decide)
    have h7 := h5.1
    simp only [List.nil_append, List.length_singleton] at h7
    rw [h4, Option.bind_some, chars_full n s1 (by omega) (by omega), Option.bind_none]
  have he : ({} : Stk).clear = {} := rfl
  simp only [encode, accept, he, JsonText.events, JsonText.upTo, run, step, Wr.pre, Wr.on, Bool.false_eq_true, if_false, Option.bind_some]
  rw [hs]
  rfl

theorem C146_violated : ¬ C146_statement := by
  intro h
  obtain ⟨n, hn⟩ : ∃ n : Nat, n = 715827883 := ⟨_, rfl⟩
  obtain ⟨s', e⟩ := h (fun _ => none) (fun _ _ h => by cases h) (.str (List.replicate n 'a')) (by
    intro e he
    simp only [JsonText.events, List.mem_singleton] at he
    subst he
    refine ⟨?_, ?_⟩
    · intro c hc
      rw [List.mem_replicate] at hc
      rw [hc.2]; decide
    · rw [List.length_replicate]; omega) {}
  rw [C146_long n hn] at e
  cases e

end Verif.JsonBuffer
