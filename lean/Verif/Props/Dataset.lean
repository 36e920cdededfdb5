import Verif.Model.Dataset

/-!
C19 for one dataset with failing library calls and 64 bit positions; C123: after a failed extension frames are accepted
again.
-/
namespace Verif.Dataset

namespace Spec

/-- What the last write to a slot that was stored has left there. -/
def last : List (W × Out) → Nat → Option Nat → Option Nat
  | [], _, v => v
  | (w, o) :: l, slot, v => last l slot (if w.slot = slot ∧ o ≠ .refused then some w.value else v)

end Spec
open Spec

/-- C19 for a dataset of unlimited length: the extent does not shrink, every accepted frame lies in it, and every
slot holds what was stored there last. -/
def C19_dataset_statement (edge : Bool) : Prop :=
  ∀ (c rank : Nat) (ws : List W), 0 < c →
    (∀ p q, (p ++ q = ws) → (run edge p (create true 0 c rank)).1.extent ≤ (run edge ws (create true 0 c rank)).1.extent) ∧
    (∀ w, (w, Out.ok) ∈ (run edge ws (create true 0 c rank)).2 → (w.slot + 1) * c ≤ (run edge ws (create true 0 c rank)).1.extent) ∧
    (∀ slot, (run edge ws (create true 0 c rank)).1.cells (slot * c) = last (run edge ws (create true 0 c rank)).2 slot none)

/-- Frame 2^61 with chunks of eight frames is stored over frame 0. -/
theorem C19_violated : ¬ C19_dataset_statement false := by
  intro h
  have h1 := (h 8 3 [⟨0, 8, 10, {}⟩, ⟨2305843009213693952, 8, 11, {}⟩] (by decide)).2.2 0
  revert h1
  decide

/-- A chunk of four frames is accepted after its extension failed, with one row inside the extent. -/
theorem C19_violated_extent : ¬ C19_dataset_statement false := by
  intro h
  have h1 := (h 4 3 [⟨0, 4, 10, { ext := false }⟩, ⟨0, 4, 10, {}⟩] (by decide)).2.1 ⟨0, 4, 10, {}⟩
  revert h1
  decide

structure Good (c : Nat) (d : Ds) : Prop where
  unl : d.unlimited = true
  mult : d.mult = c
  le : d.extent ≤ d.recorded
  pos : 0 < d.extent
  inside : ∀ p, d.cells p ≠ none → p < d.extent

theorem u64_lt {n : Nat} (h : n < 18446744073709551616) : u64 n = n := Nat.mod_eq_of_lt h

theorem extend_good {c : Nat} {d : Ds} (h : Good c d) (ok : Bool) (n : Nat) :
    Good c (extend d ok n).1 ∧ d.extent ≤ (extend d ok n).1.extent ∧ (extend d ok n).1.cells = d.cells ∧
      (extend d ok n).1.chunk = d.chunk := by
  obtain ⟨h1, h2, h3, h4, h5⟩ := h
  unfold extend
  split
  · next hc =>
    cases ok with
    | true =>
      exact ⟨⟨h1, h2, Nat.le_refl _, show 0 < n by omega, fun p hp => Nat.lt_of_lt_of_le (h5 p hp) (show d.extent ≤ n by omega)⟩,
        show d.extent ≤ n by omega, rfl, rfl⟩
    | false => exact ⟨⟨h1, h2, show d.extent ≤ n by omega, h4, h5⟩, Nat.le_refl _, rfl, rfl⟩
  · exact ⟨⟨h1, h2, h3, h4, h5⟩, Nat.le_refl _, rfl, rfl⟩

theorem put_good {c : Nat} {d : Ds} (h : Good c d) (pos v : Nat) (hp : pos < d.extent) : Good c (d.put pos v) := by
  obtain ⟨h1, h2, h3, h4, h5⟩ := h
  refine ⟨h1, h2, h3, h4, ?_⟩
  intro p hn
  by_cases e : p = pos
  · rw [e]; exact hp
  · exact h5 p (by simpa [Ds.put, e] using hn)

theorem note_eq (d : Ds) (e : Nat) : (d.note e).extent = d.extent ∧ (d.note e).cells = d.cells ∧ (d.note e).recorded = d.recorded ∧
    (d.note e).unlimited = d.unlimited ∧ (d.note e).mult = d.mult ∧ (d.note e).chunk = d.chunk := by
  unfold Ds.note
  split <;> exact ⟨rfl, rfl, rfl, rfl, rfl, rfl⟩

theorem note_good {c : Nat} {d : Ds} (h : Good c d) (e : Nat) : Good c (d.note e) := by
  obtain ⟨h1, h2, h3, h4, h5, h6⟩ := note_eq d e
  exact ⟨by rw [h4]; exact h.unl, by rw [h5]; exact h.mult, by rw [h1, h3]; exact h.le, by rw [h1]; exact h.pos,
    by rw [h1, h2]; exact h.inside⟩

/-- One write to a slot whose rows are numbers of 64 bits. -/
theorem write_good {c : Nat} {d : Ds} (h : Good c d) (lib : Lib) (slot outer v : Nat) (hb : (slot + 1) * c < 18446744073709551616) :
    Good c (writeFrame false d lib slot outer v).1 ∧ d.extent ≤ (writeFrame false d lib slot outer v).1.extent ∧
      (writeFrame false d lib slot outer v).1.chunk = d.chunk ∧
      (writeFrame false d lib slot outer v).2 ≠ .ub ∧
      ∀ p, (writeFrame false d lib slot outer v).1.cells p =
        if p = slot * c ∧ (writeFrame false d lib slot outer v).2 ≠ .refused then some v else d.cells p := by
  have hs : slot * c < 18446744073709551616 := Nat.lt_of_le_of_lt (Nat.mul_le_mul_right c (Nat.le_succ slot)) hb
  obtain ⟨h1, h2, h3, h4⟩ := extend_good h lib.ext (u64 ((slot + 1) * d.mult))
  unfold writeFrame
  generalize extend d lib.ext (u64 ((slot + 1) * d.mult)) = r at h1 h2 h3 h4
  obtain ⟨e, b⟩ := r
  cases b with
  | true => exact ⟨h1, h2, h4, by simp, fun p => by simpa using congrFun h3 p⟩
  | false =>
    dsimp only at h1 h2 h3 h4 ⊢
    have ep : u64 (slot * e.mult) = slot * c := by rw [h1.mult, u64_lt hs]
    simp only [ep]
    split
    · next hc =>
      have hc1 : slot * c < e.extent := by
        rcases hc.1 with hc | hc
        · exact hc
        · exact absurd hc.1 (by simp)
      cases lib.after with
      | false =>
        refine ⟨put_good h1 _ v hc1, h2, h4, by simp, fun p => ?_⟩
        simp [Ds.put, h3]
      | true =>
        obtain ⟨n1, n2, _, _, _, n6⟩ := note_eq (e.put (slot * c) v) (u64 (slot * c + outer))
        refine ⟨note_good (put_good h1 _ v hc1) _, ?_, ?_, by simp, fun p => ?_⟩
        · show d.extent ≤ ((e.put (slot * c) v).note (u64 (slot * c + outer))).extent
          rw [n1]; exact h2
        · show ((e.put (slot * c) v).note (u64 (slot * c + outer))).chunk = d.chunk
          rw [n6]; exact h4
        · show ((e.put (slot * c) v).note (u64 (slot * c + outer))).cells p = _
          rw [n2]
          simp [Ds.put, h3]
    · exact ⟨h1, h2, h4, by simp, fun p => by simp [h3]⟩

theorem run_good {c : Nat} (hc : 0 < c) (ws : List W) (hb : ∀ w ∈ ws, (w.slot + 1) * c < 18446744073709551616) {d : Ds} (h : Good c d) :
    Good c (run false ws d).1 ∧ d.extent ≤ (run false ws d).1.extent ∧ (run false ws d).1.chunk = d.chunk ∧
      ∀ slot, (run false ws d).1.cells (slot * c) = last (run false ws d).2 slot (d.cells (slot * c)) := by
  induction ws generalizing d with
  | nil => exact ⟨h, Nat.le_refl _, rfl, fun _ => rfl⟩
  | cons w ws ih =>
    obtain ⟨h1, h2, h3, _, h4⟩ := write_good h w.lib w.slot w.outer w.value (hb w (by simp))
    obtain ⟨h5, h6, h7, h8⟩ := ih (fun x hx => hb x (List.mem_cons_of_mem _ hx)) h1
    refine ⟨h5, Nat.le_trans h2 h6, h7.trans h3, ?_⟩
    intro slot
    have e := h8 slot
    simp only [run, last]
    rw [e, h4]
    have hm : slot * c = w.slot * c ↔ w.slot = slot := by
      constructor
      · intro e; exact (Nat.eq_of_mul_eq_mul_right hc e).symm
      · intro e; rw [e]
    simp only [hm]

theorem created_good (c rank : Nat) : Good c (create true 0 c rank) :=
  ⟨rfl, rfl, Nat.le_refl _, Nat.one_pos, fun _ h => absurd rfl h⟩

theorem run_append (edge : Bool) (p q : List W) (d : Ds) : (run edge (p ++ q) d).1 = (run edge q (run edge p d).1).1 := by
  induction p generalizing d with
  | nil => rfl
  | cons w p ih => exact ih _

/-- No extension has failed: what is recorded is the extent. -/
theorem write_exact {c : Nat} {d : Ds} (h : Good c d) (he : d.recorded = d.extent) (lib : Lib) (hl : lib.ext = true) (slot outer v : Nat)
    (hb : (slot + 1) * c < 18446744073709551616) :
    (writeFrame false d lib slot outer v).1.recorded = (writeFrame false d lib slot outer v).1.extent ∧
      (slot + 1) * c ≤ (writeFrame false d lib slot outer v).1.extent := by
  have hx : (extend d lib.ext (u64 ((slot + 1) * d.mult))).1.recorded = (extend d lib.ext (u64 ((slot + 1) * d.mult))).1.extent ∧
      (slot + 1) * c ≤ (extend d lib.ext (u64 ((slot + 1) * d.mult))).1.extent := by
    rw [h.mult, u64_lt hb, hl]
    unfold extend
    split
    · exact ⟨rfl, Nat.le_refl _⟩
    · next hn =>
      have hu := h.unl
      refine ⟨he, ?_⟩
      rw [← he]
      exact Nat.le_of_not_lt (fun hh => hn ⟨hu, hh⟩)
  unfold writeFrame
  generalize extend d lib.ext (u64 ((slot + 1) * d.mult)) = r at hx
  obtain ⟨e, b⟩ := r
  cases b with
  | true => exact hx
  | false =>
    dsimp only at hx ⊢
    split
    · cases lib.after with
      | false => exact hx
      | true =>
        obtain ⟨n1, _, n3, _⟩ := note_eq (e.put (u64 (slot * e.mult)) v) (u64 (u64 (slot * e.mult) + outer))
        simp only [if_true]
        rw [n1, n3]
        exact hx
    · exact hx

theorem run_exact {c : Nat} (hc : 0 < c) (ws : List W) (hb : ∀ w ∈ ws, (w.slot + 1) * c < 18446744073709551616)
    (hl : ∀ w ∈ ws, w.lib.ext = true) {d : Ds} (h : Good c d) (he : d.recorded = d.extent) :
    (run false ws d).1.recorded = (run false ws d).1.extent ∧ ∀ w ∈ ws, (w.slot + 1) * c ≤ (run false ws d).1.extent := by
  induction ws generalizing d with
  | nil => exact ⟨he, fun _ h => by cases h⟩
  | cons w ws ih =>
    have hb' : ∀ x ∈ ws, (x.slot + 1) * c < 18446744073709551616 := fun x hx => hb x (List.mem_cons_of_mem _ hx)
    obtain ⟨h1, _⟩ := write_good h w.lib w.slot w.outer w.value (hb w (by simp))
    obtain ⟨h2, h3⟩ := write_exact h he w.lib (hl w (by simp)) w.slot w.outer w.value (hb w (by simp))
    obtain ⟨h4, h5⟩ := ih hb' (fun x hx => hl x (List.mem_cons_of_mem _ hx)) h1 h2
    refine ⟨h4, ?_⟩
    intro x hx
    rcases List.mem_cons.1 hx with rfl | hx
    · exact Nat.le_trans h3 (run_good hc ws hb' h1).2.1
    · exact h5 x hx

theorem mem_run (edge : Bool) (ws : List W) (d : Ds) (w : W) (o : Out) (h : (w, o) ∈ (run edge ws d).2) : w ∈ ws := by
  induction ws generalizing d with
  | nil => cases h
  | cons x ws ih =>
    simp only [run] at h
    rcases List.mem_cons.1 h with h | h
    · cases h; simp
    · exact List.mem_cons_of_mem _ (ih _ h)

/-- C19 for slots whose rows are numbers of 64 bits: the extent never shrinks, everything stored lies inside it, and
every slot holds what was stored there last, whichever calls failed; if no extension failed, all rows of every frame
lie inside. -/
theorem C19_dataset_partial (c rank : Nat) (hc : 0 < c) (ws : List W) (hb : ∀ w ∈ ws, (w.slot + 1) * c < 18446744073709551616) :
    (∀ p q, p ++ q = ws → (run false p (create true 0 c rank)).1.extent ≤ (run false ws (create true 0 c rank)).1.extent) ∧
    (∀ p, (run false ws (create true 0 c rank)).1.cells p ≠ none → p < (run false ws (create true 0 c rank)).1.extent) ∧
    (∀ slot, (run false ws (create true 0 c rank)).1.cells (slot * c) = last (run false ws (create true 0 c rank)).2 slot none) ∧
    ((∀ w ∈ ws, w.lib.ext = true) →
      ∀ w, (w, Out.ok) ∈ (run false ws (create true 0 c rank)).2 → (w.slot + 1) * c ≤ (run false ws (create true 0 c rank)).1.extent) := by
  obtain ⟨h1, _, _, h4⟩ := run_good hc ws hb (created_good c rank)
  refine ⟨?_, h1.inside, h4, ?_⟩
  · rintro p q rfl
    rw [run_append]
    have hp := (run_good hc p (fun w hw => hb w (List.mem_append_left _ hw)) (created_good c rank)).1
    exact (run_good hc q (fun w hw => hb w (List.mem_append_right _ hw)) hp).2.1
  · intro hl w hw
    exact (run_exact hc ws hb hl (created_good c rank) rfl).2 w (mem_run false ws _ w _ hw)

/-- Frames 0, 5 and 2 of chunks of two, with a failed write and a failed extension. -/
example : (run false [⟨0, 2, 10, {}⟩, ⟨5, 2, 15, { ext := false }⟩, ⟨6, 2, 16, {}⟩, ⟨2, 2, 12, { store := false }⟩, ⟨2, 2, 13, { after := false }⟩]
      (create true 0 2 3)).2.map Prod.snd = [.ok, .refused, .ok, .refused, .stored] ∧
    (run false [⟨0, 2, 10, {}⟩, ⟨5, 2, 15, { ext := false }⟩, ⟨6, 2, 16, {}⟩, ⟨2, 2, 12, { store := false }⟩, ⟨2, 2, 13, { after := false }⟩]
      (create true 0 2 3)).1.extent = 14 ∧
    (run false [⟨0, 2, 10, {}⟩, ⟨5, 2, 15, { ext := false }⟩, ⟨6, 2, 16, {}⟩, ⟨2, 2, 12, { store := false }⟩, ⟨2, 2, 13, { after := false }⟩]
      (create true 0 2 3)).1.cells 4 = some 13 := by decide

/-! ## C123 -/

/-- The library works. -/
def works : Lib := {}

/-- C123: whatever failed before, a frame is accepted once the library works. -/
def C123_statement : Prop :=
  ∀ (c rank : Nat) (ws : List W) (slot outer v : Nat), 0 < c → (∀ w ∈ ws, (w.slot + 1) * c < 18446744073709551616) →
    (slot + 1) * c < 18446744073709551616 →
    (writeFrame false (run false ws (create true 0 c rank)).1 works slot outer v).2 = .ok

/-- The frame whose extension failed, sent again. -/
theorem C123_violated : ¬ C123_statement := by
  intro h
  have h1 := h 1 3 [⟨5, 1, 10, { ext := false }⟩] 5 1 10 (by decide) (by decide) (by decide)
  revert h1
  decide

theorem write_works {c : Nat} (hc : 0 < c) {d : Ds} (h : Good c d) (hk : d.chunk = c) (slot outer v : Nat)
    (hb : (slot + 1) * c < 18446744073709551616) :
    (writeFrame false d works slot outer v).2 = .ok ↔ (slot * c < d.extent ∨ d.recorded < (slot + 1) * c) := by
  have hs : slot * c < 18446744073709551616 := Nat.lt_of_le_of_lt (Nat.mul_le_mul_right c (Nat.le_succ slot)) hb
  have hlt : slot * c < (slot + 1) * c := Nat.mul_lt_mul_of_pos_right (Nat.lt_succ_self slot) hc
  unfold writeFrame
  rw [h.mult, u64_lt hb]
  by_cases hr : d.recorded < (slot + 1) * c
  · have e : extend d works.ext ((slot + 1) * c) = ({ d with recorded := (slot + 1) * c, extent := (slot + 1) * c }, false) := by
      unfold extend
      rw [if_pos ⟨h.unl, hr⟩]
      rfl
    rw [e]
    dsimp only
    rw [h.mult, u64_lt hs, hk, if_pos ⟨Or.inl hlt, Nat.mul_mod_left slot c, rfl⟩]
    simp [works, hr]
  · have e : extend d works.ext ((slot + 1) * c) = (d, false) := by
      unfold extend
      rw [if_neg (fun hh => hr hh.2)]
    rw [e]
    dsimp only
    rw [h.mult, u64_lt hs, hk]
    by_cases hx : slot * c < d.extent
    · rw [if_pos ⟨Or.inl hx, Nat.mul_mod_left slot c, rfl⟩]
      simp [works, hx]
    · rw [if_neg (by rintro ⟨h1 | h1, _⟩ <;> simp_all)]
      simp [hx, hr]

/-- Which frames are accepted by a working library, after anything: those that start inside the extent, and those that
end behind the size recorded. -/
theorem C123_partial (c rank : Nat) (hc : 0 < c) (ws : List W) (hb : ∀ w ∈ ws, (w.slot + 1) * c < 18446744073709551616)
    (slot outer v : Nat) (hs : (slot + 1) * c < 18446744073709551616) :
    (writeFrame false (run false ws (create true 0 c rank)).1 works slot outer v).2 = .ok ↔
      (slot * c < (run false ws (create true 0 c rank)).1.extent ∨ (run false ws (create true 0 c rank)).1.recorded < (slot + 1) * c) := by
  obtain ⟨h1, _, h3, _⟩ := run_good hc ws hb (created_good c rank)
  exact write_works hc h1 h3 slot outer v hs

/-- All of them if no extension has failed, whatever else has. -/
theorem C123_no_failed_extension (c rank : Nat) (hc : 0 < c) (ws : List W) (hb : ∀ w ∈ ws, (w.slot + 1) * c < 18446744073709551616)
    (hl : ∀ w ∈ ws, w.lib.ext = true) (slot outer v : Nat) (hs : (slot + 1) * c < 18446744073709551616) :
    (writeFrame false (run false ws (create true 0 c rank)).1 works slot outer v).2 = .ok := by
  rw [C123_partial c rank hc ws hb slot outer v hs, (run_exact hc ws hb hl (created_good c rank) rfl).1]
  have : slot * c < (slot + 1) * c := Nat.mul_lt_mul_of_pos_right (Nat.lt_succ_self slot) hc
  omega

/-- After a failed extension for a slot, frames up to that slot that start behind the extent are refused, however often
they are sent, until a frame of a later slot comes. -/
theorem C123_lost (c rank : Nat) (hc : 0 < c) (ws : List W) (hb : ∀ w ∈ ws, (w.slot + 1) * c < 18446744073709551616)
    (f : W) (hf : f.lib.ext = false) (hfb : (f.slot + 1) * c < 18446744073709551616)
    (hr : (run false ws (create true 0 c rank)).1.recorded < (f.slot + 1) * c)
    (more : List W) (hm : ∀ w ∈ more, w.slot ≤ f.slot) :
    ∀ w o, (w, o) ∈ (run false more (run false (ws ++ [f]) (create true 0 c rank)).1).2 →
      (run false ws (create true 0 c rank)).1.extent ≤ w.slot * c → o = .refused := by
  obtain ⟨h1, _, _, _⟩ := run_good hc ws hb (created_good c rank)
  rw [run_append]
  generalize (run false ws (create true 0 c rank)).1 = d at h1 hr
  have e : (run false [f] d).1 = { d with recorded := (f.slot + 1) * c } := by
    simp only [run, writeFrame, h1.mult, u64_lt hfb, hf, extend]
    rw [if_pos (show d.unlimited = true ∧ (f.slot + 1) * c > d.recorded from ⟨h1.unl, hr⟩)]
    rfl
  rw [e]
  have key : ∀ (more : List W) (x : Ds), (∀ w ∈ more, w.slot ≤ f.slot) → Good c x → x.recorded = (f.slot + 1) * c →
      x.extent = d.extent → ∀ w o, (w, o) ∈ (run false more x).2 → d.extent ≤ w.slot * c → o = .refused := by
    intro more
    induction more with
    | nil => intro x _ _ _ _ w o h; cases h
    | cons y more ih =>
      intro x hm hg hxr hxe w o hw hle
      have hy : (y.slot + 1) * c ≤ (f.slot + 1) * c := Nat.mul_le_mul_right c (Nat.succ_le_succ (hm y (by simp)))
      have hyb : (y.slot + 1) * c < 18446744073709551616 := Nat.lt_of_le_of_lt hy hfb
      have hys : y.slot * c < 18446744073709551616 := Nat.lt_of_le_of_lt (Nat.mul_le_mul_right c (Nat.le_succ _)) hyb
      have ex : extend x y.lib.ext (u64 ((y.slot + 1) * x.mult)) = (x, false) := by
        rw [hg.mult, u64_lt hyb]
        unfold extend
        rw [if_neg (by rw [hxr]; intro hh; exact absurd hh.2 (Nat.not_lt.2 hy))]
      obtain ⟨g1, _⟩ := write_good hg y.lib y.slot y.outer y.value hyb
      have step : (writeFrame false x y.lib y.slot y.outer y.value).1.recorded = (f.slot + 1) * c ∧
          (writeFrame false x y.lib y.slot y.outer y.value).1.extent = d.extent ∧
          (d.extent ≤ y.slot * c → (writeFrame false x y.lib y.slot y.outer y.value).2 = .refused) := by
        unfold writeFrame
        rw [ex]
        dsimp only
        rw [hg.mult, u64_lt hys]
        split
        · next hcnd =>
          have hlt : y.slot * c < x.extent := by
            rcases hcnd.1 with h | h
            · exact h
            · exact absurd h.1 (by simp)
          have hno : ¬ d.extent ≤ y.slot * c := by omega
          cases y.lib.after with
          | false => exact ⟨hxr, hxe, fun h => absurd h hno⟩
          | true =>
            obtain ⟨n1, _, n3, _⟩ := note_eq (x.put (y.slot * c) y.value) (u64 (y.slot * c + y.outer))
            refine ⟨?_, ?_, fun h => absurd h hno⟩
            · exact n3.trans hxr
            · exact n1.trans hxe
        · exact ⟨hxr, hxe, fun _ => rfl⟩
      simp only [run] at hw
      rcases List.mem_cons.1 hw with hw | hw
      · cases hw; exact step.2.2 hle
      · exact ih _ (fun w hw => hm w (List.mem_cons_of_mem _ hw)) g1 step.1 step.2.1 w o hw hle
  refine key more _ hm ?_ rfl rfl
  exact ⟨h1.unl, h1.mult, Nat.le_of_lt (Nat.lt_of_le_of_lt h1.le hr), h1.pos, h1.inside⟩

/-- Frame 5 fails to extend; frames 3, 4 and 5 are refused, frame 6 is taken, and then they are too. -/
example : (run false [⟨0, 1, 10, {}⟩, ⟨5, 1, 15, { ext := false }⟩, ⟨3, 1, 13, {}⟩, ⟨4, 1, 14, {}⟩, ⟨5, 1, 15, {}⟩, ⟨6, 1, 16, {}⟩, ⟨5, 1, 15, {}⟩]
    (create true 0 1 3)).2.map Prod.snd = [.ok, .refused, .refused, .refused, .refused, .ok, .ok] := by decide

end Verif.Dataset
