import Verif.Props.Dataset

/-!
C124: the parameters of a frame are stored with it.
-/
namespace Verif.Dataset

namespace Spec

/-- What a file holds in a row of a dataset. -/
def holds (f : File) (n : String) (row : Nat) : Option Nat := (f n).bind (fun d => d.cells row)

/-- The number of the right kind in a parameter; the types of a definition and of a value have to be the same. -/
def number : DataType → Any → Option Nat
  | .raw8, .u8 n => some n
  | .raw16, .u16 n => some n
  | .raw32, .u32 n => some n
  | .raw64, .u64 n => some n
  | .rawFloat, .float n => some n
  | .rawUnknown, .u16 n => some n
  | _, _ => none

/-- What the last frame of a slot with the parameter has for it. -/
def lastPar (defs : String → Option DataType) : List Fr → String → Nat → Option Nat → Option Nat
  | [], _, _, v => v
  | x :: l, n, slot, v =>
    lastPar defs l n slot (if x.slot = slot then
      match x.pars.lookup n, defs n with
      | some (a, _), some t => number t a
      | _, _ => v
    else v)

end Spec
open Spec

/-- C124: a frame is accepted with its image and all its parameters that have a dataset stored at its place, or refused
and nothing is stored; no memory outside an array is read. -/
def C124_statement : Prop :=
  ∀ (edge : Bool) (defs : String → Option DataType) (f : File) (x : Fr), (x.pars.map Prod.fst).Nodup → (∀ n ∈ x.pars.map Prod.fst, n ≠ x.dataset) →
    match frame edge defs f x with
    | (g, .ok) => ∀ n a lib t, (n, a, lib) ∈ x.pars → defs n = some t → ∃ v, number t a = some v ∧ holds g n x.slot = some v
    | (g, .refused) => ∀ n row, holds g n row = holds f n row
    | (g, .stored) => ∀ n row, holds g n row = holds f n row
    | (_, .ub) => False

def defs1 : String → Option DataType
  | "data" => some .raw16
  | "id" => some .raw64
  | "late" => some .raw32
  | _ => none

def file1 : File
  | "data" => some (create true 0 1 3)
  | "id" => some (create true 0 1 1)
  | "late" => some (create true 0 1 1)
  | _ => none

/-- A frame whose last parameter has the wrong type: refused, with its image and its first parameter in the file. -/
def mixed : Fr := ⟨"data", 4, 1, 99, works, [("id", .u64 7, works), ("late", .u64 8, works)]⟩

theorem C124_violated : ¬ C124_statement := by
  intro h
  have h1 := h false defs1 file1 mixed (by decide) (by decide)
  have e : frame false defs1 file1 mixed = ((frame false defs1 file1 mixed).1, .refused) := by
    have : (frame false defs1 file1 mixed).2 = .refused := by decide
    rw [← this]
  rw [e] at h1
  dsimp only at h1
  exact absurd (h1 "data" 4) (by decide)

/-- A parameter whose dataset has the dimensions of an image. -/
theorem C124_violated_ub : (frame false (fun n => if n = "id" then some .raw64 else none)
    ((file1.set "id" (create true 0 1 3))) ⟨"data", 0, 1, 99, works, [("id", .u64 7, works)]⟩).2 = .ub := by decide

theorem value_number (t : DataType) (a : Any) : value t a = number t a := by cases t <;> cases a <;> rfl

theorem extend_cells (d : Ds) (ok : Bool) (n : Nat) : (extend d ok n).1.cells = d.cells := by
  unfold extend
  split
  · cases ok <;> rfl
  · rfl

theorem extend_rank (d : Ds) (ok : Bool) (n : Nat) : (extend d ok n).1.rank = d.rank := by
  unfold extend
  split
  · cases ok <;> rfl
  · rfl

/-- What one parameter does. -/
theorem param_spec (d : Ds) (t : DataType) (a : Any) (lib : Lib) (slot : Nat) :
    match writeParam d t a lib slot with
    | (e, .ok) => ∃ v, number t a = some v ∧ e.cells = (fun r => if r = slot then some v else d.cells r) ∧ e.rank = d.rank
    | (e, .stored) => ∃ v, number t a = some v ∧ e.cells = (fun r => if r = slot then some v else d.cells r) ∧ e.rank = d.rank
    | (e, .refused) => e.cells = d.cells ∧ e.rank = d.rank
    | (e, .ub) => e.cells = d.cells ∧ d.rank ≠ 1 := by
  unfold writeParam
  rw [value_number]
  cases number t a with
  | none => exact ⟨rfl, rfl⟩
  | some v =>
    dsimp only
    have h1 := extend_cells d lib.ext (u64 (slot + 1))
    have h2 := extend_rank d lib.ext (u64 (slot + 1))
    generalize extend d lib.ext (u64 (slot + 1)) = r at h1 h2
    obtain ⟨e, b⟩ := r
    dsimp only at h1 h2
    cases b with
    | true => exact ⟨h1, h2⟩
    | false =>
      dsimp only
      by_cases hr : e.rank ≠ 1
      · rw [if_pos hr]
        exact ⟨h1, by rw [← h2]; exact hr⟩
      · rw [if_neg hr]
        by_cases hc : slot < e.extent ∧ lib.store = true
        · rw [if_pos hc]
          cases lib.after <;> exact ⟨v, rfl, by simp [Ds.put, h1], h2⟩
        · rw [if_neg hc]
          exact ⟨h1, h2⟩

theorem lookup_none {l : List (String × Any × Lib)} {n : String} (h : n ∉ l.map Prod.fst) : l.lookup n = none := by
  induction l with
  | nil => rfl
  | cons x l ih =>
    obtain ⟨m, y⟩ := x
    simp only [List.map_cons, List.mem_cons, not_or] at h
    have : (n == m) = false := by simpa using h.1
    simp only [List.lookup, this]
    exact ih h.2

theorem lookup_mem {l : List (String × Any × Lib)} (hn : (l.map Prod.fst).Nodup) {n : String} {y : Any × Lib} (h : (n, y) ∈ l) :
    l.lookup n = some y := by
  induction l with
  | nil => cases h
  | cons x l ih =>
    obtain ⟨m, z⟩ := x
    simp only [List.map_cons, List.nodup_cons] at hn
    rcases List.mem_cons.1 h with h' | h'
    · cases h'; simp
    · have : (n == m) = false := by
        simp only [beq_eq_false_iff_ne]
        rintro rfl
        exact hn.1 (List.mem_map.2 ⟨(n, y), h', rfl⟩)
      simp only [List.lookup, this]
      exact ih hn.2 h'

/-- The rows of a dataset after the parameters of an accepted frame. -/
def after (defs : String → Option DataType) (ps : List (String × Any × Lib)) (slot : Nat) (f : File) (n : String) (row : Nat) : Option Nat :=
  if row = slot then
    match ps.lookup n, defs n with
    | some (a, _), some t => number t a
    | _, _ => holds f n row
  else holds f n row

theorem params_ok (defs : String → Option DataType) (slot : Nat) (ps : List (String × Any × Lib)) (hn : (ps.map Prod.fst).Nodup) (f : File)
    (h : (params defs slot f ps).2 = .ok) :
    (∀ n row, holds (params defs slot f ps).1 n row = after defs ps slot f n row) ∧
      ∀ n a lib t, (n, a, lib) ∈ ps → defs n = some t → ∃ v, number t a = some v := by
  induction ps generalizing f with
  | nil => exact ⟨fun n row => by simp [params, after], fun _ _ _ _ h => by cases h⟩
  | cons x ps ih =>
    obtain ⟨m, a, lib⟩ := x
    simp only [List.map_cons, List.nodup_cons] at hn
    have hlk := lookup_none hn.1
    simp only [params] at h ⊢
    cases hd : defs m with
    | none =>
      rw [hd] at h
      dsimp only at h ⊢
      obtain ⟨h1, h2⟩ := ih hn.2 f h
      refine ⟨?_, ?_⟩
      · intro n row
        rw [h1]
        unfold after
        by_cases e : n = m
        · subst e
          simp only [hlk, hd, List.lookup, beq_self_eq_true]
        · have : (n == m) = false := by simpa using e
          simp only [List.lookup, this]
      · intro n a' lib' t hm ht
        rcases List.mem_cons.1 hm with hm | hm
        · cases hm; rw [hd] at ht; cases ht
        · exact h2 n a' lib' t hm ht
    | some t =>
      rw [hd] at h
      dsimp only at h ⊢
      cases hf : f m with
      | none => rw [hf] at h; simp at h
      | some d =>
        rw [hf] at h
        dsimp only at h ⊢
        have hp := param_spec d t a lib slot
        generalize writeParam d t a lib slot = r at h hp
        obtain ⟨e, o⟩ := r
        cases o with
        | ok =>
          dsimp only at h hp ⊢
          obtain ⟨v, hv, hc, _⟩ := hp
          obtain ⟨h1, h2⟩ := ih hn.2 (f.set m e) h
          refine ⟨?_, ?_⟩
          · intro n row
            rw [h1]
            unfold after
            by_cases en : n = m
            · subst en
              simp only [hlk, hd, List.lookup, beq_self_eq_true, hv]
              simp only [holds, File.set, if_true, Option.bind_some, hc, hf]
              by_cases er : row = slot <;> simp [er]
            · have : (n == m) = false := by simpa using en
              simp only [List.lookup, this]
              simp only [holds, File.set, en, if_false]
          · intro n a' lib' t' hm ht
            rcases List.mem_cons.1 hm with hm | hm
            · cases hm
              rw [hd] at ht
              cases ht
              exact ⟨v, hv⟩
            · exact h2 n a' lib' t' hm ht
        | stored => simp at h
        | refused => simp at h
        | ub => simp at h

/-- The image of an accepted frame, with 64 bit positions. -/
theorem frame_cells (edge : Bool) (d : Ds) (lib : Lib) (slot outer v : Nat) :
    ∀ r, (writeFrame edge d lib slot outer v).1.cells r =
      if r = u64 (slot * d.mult) ∧ (writeFrame edge d lib slot outer v).2 ≠ .refused then some v else d.cells r := by
  have h1 := extend_cells d lib.ext (u64 ((slot + 1) * d.mult))
  have h2 : (extend d lib.ext (u64 ((slot + 1) * d.mult))).1.mult = d.mult := by
    unfold extend
    split
    · cases lib.ext <;> rfl
    · rfl
  intro r
  unfold writeFrame
  generalize extend d lib.ext (u64 ((slot + 1) * d.mult)) = x at h1 h2
  obtain ⟨e, b⟩ := x
  dsimp only at h1 h2
  cases b with
  | true => simp [h1]
  | false =>
    dsimp only
    simp only [h2]
    split
    · cases lib.after with
      | false => simp [Ds.put, h1]
      | true =>
        obtain ⟨_, n2, _⟩ := note_eq (e.put (u64 (slot * d.mult)) v) (u64 (u64 (slot * d.mult) + outer))
        simp only [if_true, n2]
        simp [Ds.put, h1]
    · simp [h1]

/-- The other outcomes of the parameters: only rows of the frame's slot in datasets of its parameters can have
changed. -/
theorem params_rest (defs : String → Option DataType) (slot : Nat) (ps : List (String × Any × Lib)) (f : File) (n : String) (row : Nat)
    (h : row ≠ slot ∨ n ∉ ps.map Prod.fst ∨ defs n = none) :
    holds (params defs slot f ps).1 n row = holds f n row := by
  induction ps generalizing f with
  | nil => rfl
  | cons x ps ih =>
    obtain ⟨m, a, lib⟩ := x
    have h' : row ≠ slot ∨ n ∉ ps.map Prod.fst ∨ defs n = none := by
      rcases h with h | h | h
      · exact Or.inl h
      · exact Or.inr (Or.inl (fun hm => h (List.mem_cons_of_mem _ hm)))
      · exact Or.inr (Or.inr h)
    simp only [params]
    cases hd : defs m with
    | none => exact ih f h'
    | some t =>
      dsimp only
      cases hf : f m with
      | none => rfl
      | some d =>
        dsimp only
        have hp := param_spec d t a lib slot
        generalize writeParam d t a lib slot = r at hp
        obtain ⟨e, o⟩ := r
        have same : holds (f.set m e) n row = holds f n row := by
          by_cases en : n = m
          · subst en
            simp only [holds, File.set, if_true, hf, Option.bind_some]
            have hrow : row ≠ slot := by
              rcases h with h | h | h
              · exact h
              · exact absurd (by simp) h
              · rw [hd] at h; cases h
            cases o <;> dsimp only at hp
            · obtain ⟨v, _, hc, _⟩ := hp; rw [hc]; simp [hrow]
            · obtain ⟨v, _, hc, _⟩ := hp; rw [hc]; simp [hrow]
            · rw [hp.1]
            · rw [hp.1]
          · simp [holds, File.set, en]
        cases o with
        | ok => exact (ih (f.set m e) h').trans same
        | _ => exact same

/-- What holds: an accepted frame has its image and all its parameters that have a dataset at its place, with the
values given; whatever the outcome nothing else in the file changes. -/
theorem C124_partial (edge : Bool) (defs : String → Option DataType) (f : File) (x : Fr) (hn : (x.pars.map Prod.fst).Nodup)
    (hx : ∀ n ∈ x.pars.map Prod.fst, n ≠ x.dataset) :
    ((frame edge defs f x).2 = .ok →
      (∃ d, f x.dataset = some d ∧ holds (frame edge defs f x).1 x.dataset (u64 (x.slot * d.mult)) = some x.image) ∧
      ∀ n a lib t, (n, a, lib) ∈ x.pars → defs n = some t →
        ∃ v, number t a = some v ∧ holds (frame edge defs f x).1 n x.slot = some v) ∧
    (∀ n row, (n = x.dataset → ∀ d, f n = some d → row ≠ u64 (x.slot * d.mult)) →
      (row ≠ x.slot ∨ n ∉ x.pars.map Prod.fst ∨ defs n = none) →
      holds (frame edge defs f x).1 n row = holds f n row) := by
  unfold frame
  cases hf : f x.dataset with
  | none => exact ⟨fun h => by simp at h, fun n row _ _ => rfl⟩
  | some d =>
    dsimp only
    have hc := frame_cells edge d x.lib x.slot x.outer x.image
    generalize writeFrame edge d x.lib x.slot x.outer x.image = r at hc
    obtain ⟨e, o⟩ := r
    dsimp only at hc
    have same : ∀ n row, (n = x.dataset → ∀ d, f n = some d → row ≠ u64 (x.slot * d.mult)) →
        holds (f.set x.dataset e) n row = holds f n row := by
      intro n row h
      by_cases en : n = x.dataset
      · subst en
        have := h rfl d hf
        simp only [holds, File.set, if_true, hf, Option.bind_some, hc]
        rw [if_neg (fun hh => this hh.1)]
      · simp [holds, File.set, en]
    cases o with
    | ok =>
      dsimp only
      refine ⟨?_, ?_⟩
      · intro h
        obtain ⟨h1, h2⟩ := params_ok defs x.slot x.pars hn (f.set x.dataset e) h
        refine ⟨⟨d, rfl, ?_⟩, ?_⟩
        · rw [params_rest defs x.slot x.pars _ _ _ (Or.inr (Or.inl (fun hm => hx _ hm rfl)))]
          simp [holds, File.set, hc]
        · intro n a lib t hm ht
          obtain ⟨v, hv⟩ := h2 n a lib t hm ht
          refine ⟨v, hv, ?_⟩
          rw [h1]
          simp only [after, if_true, lookup_mem hn hm, ht, hv]
      · intro n row h1 h2
        rw [params_rest defs x.slot x.pars _ _ _ h2]
        exact same n row h1
    | _ => exact ⟨fun h => by simp at h, fun n row h1 _ => same n row h1⟩

/-- The memory outside the array is read only for a parameter whose dataset has more than one dimension. -/
theorem params_ub (defs : String → Option DataType) (slot : Nat) (ps : List (String × Any × Lib)) (f : File)
    (h : ∀ n ∈ ps.map Prod.fst, defs n ≠ none → ∀ d, f n = some d → d.rank = 1) : (params defs slot f ps).2 ≠ .ub := by
  induction ps generalizing f with
  | nil => simp [params]
  | cons x ps ih =>
    obtain ⟨m, a, lib⟩ := x
    simp only [params]
    cases hd : defs m with
    | none => exact ih f (fun n hn => h n (List.mem_cons_of_mem _ hn))
    | some t =>
      dsimp only
      cases hf : f m with
      | none => simp
      | some d =>
        dsimp only
        have hr : d.rank = 1 := h m (by simp) (by rw [hd]; simp) d hf
        have hp := param_spec d t a lib slot
        generalize writeParam d t a lib slot = r at hp
        obtain ⟨e, o⟩ := r
        cases o with
        | ok =>
          dsimp only at hp ⊢
          refine ih (f.set m e) ?_
          intro n hn hdn d' hd'
          by_cases en : n = m
          · subst en
            obtain ⟨_, _, _, hrank⟩ := hp
            simp only [File.set, if_true, Option.some.injEq] at hd'
            rw [← hd', hrank, hr]
          · exact h n (List.mem_cons_of_mem _ hn) hdn d' (by simpa [File.set, en] using hd')
        | stored => simp
        | refused => simp
        | ub => exact absurd hr hp.2

theorem C124_memory (edge : Bool) (defs : String → Option DataType) (f : File) (x : Fr)
    (hx : ∀ n ∈ x.pars.map Prod.fst, n ≠ x.dataset)
    (h : ∀ n ∈ x.pars.map Prod.fst, defs n ≠ none → ∀ d, f n = some d → d.rank = 1) : (frame edge defs f x).2 ≠ .ub := by
  have hw : ∀ (d : Ds) (lib : Lib) (slot outer v : Nat), (writeFrame edge d lib slot outer v).2 ≠ .ub := by
    intro d lib slot outer v
    unfold writeFrame
    generalize extend d lib.ext (u64 ((slot + 1) * d.mult)) = r
    obtain ⟨e, b⟩ := r
    cases b
    · dsimp only
      split
      · cases lib.after <;> simp
      · simp
    · simp
  unfold frame
  cases hf : f x.dataset with
  | none => simp
  | some d =>
    dsimp only
    have := hw d x.lib x.slot x.outer x.image
    generalize writeFrame edge d x.lib x.slot x.outer x.image = r at this
    obtain ⟨e, o⟩ := r
    cases o with
    | ok =>
      refine params_ub defs x.slot x.pars _ ?_
      intro n hn hd d' hd'
      have en : n ≠ x.dataset := hx n hn
      exact h n hn hd d' (by simpa [File.set, en] using hd')
    | stored => simp
    | refused => simp
    | ub => exact absurd rfl this

/-- After any accepted frames, a dataset of parameters (that no frame has as its own) holds in each row the value of the
last frame of that slot that had the parameter. -/
theorem C124_runs (edge : Bool) (defs : String → Option DataType) (n : String) (xs : List Fr)
    (hx : ∀ x ∈ xs, (x.pars.map Prod.fst).Nodup ∧ (∀ m ∈ x.pars.map Prod.fst, m ≠ x.dataset) ∧ x.dataset ≠ n)
    (f : File) (h : ∀ o ∈ (frames edge defs xs f).2, o = .ok) (slot : Nat) :
    holds (frames edge defs xs f).1 n slot = lastPar defs xs n slot (holds f n slot) := by
  induction xs generalizing f with
  | nil => rfl
  | cons x xs ih =>
    simp only [frames] at h ⊢
    obtain ⟨h1, h2, h3⟩ := hx x (by simp)
    rw [ih (fun y hy => hx y (List.mem_cons_of_mem _ hy)) _ (fun o ho => h o (List.mem_cons_of_mem _ ho))]
    have hok : (frame edge defs f x).2 = .ok := h _ (by simp)
    obtain ⟨p1, p2⟩ := C124_partial edge defs f x h1 h2
    simp only [lastPar]
    congr 1
    by_cases hs : x.slot = slot
    · subst hs
      rw [if_pos rfl]
      cases hl : x.pars.lookup n with
      | none =>
        dsimp only
        refine p2 n x.slot (fun e => absurd e.symm h3) (Or.inr (Or.inl ?_))
        intro hm
        obtain ⟨⟨m, y⟩, hy, rfl⟩ := List.mem_map.1 hm
        rw [lookup_mem h1 hy] at hl
        cases hl
      | some y =>
        obtain ⟨a, lib⟩ := y
        cases hd : defs n with
        | none => exact p2 n x.slot (fun e => absurd e.symm h3) (Or.inr (Or.inr hd))
        | some t =>
          dsimp only
          have hm : (n, a, lib) ∈ x.pars := by
            have : ∀ l : List (String × Any × Lib), l.lookup n = some (a, lib) → (n, a, lib) ∈ l := by
              intro l
              induction l with
              | nil => intro h; cases h
              | cons z l ihl =>
                obtain ⟨m, z⟩ := z
                intro h
                by_cases e : n = m
                · subst e; simp at h; simp [h]
                · have e' : (n == m) = false := by simpa using e
                  simp only [List.lookup, e'] at h
                  exact List.mem_cons_of_mem _ (ihl h)
            exact this _ hl
          obtain ⟨v, hv, hr⟩ := (p1 hok).2 n a lib t hm hd
          rw [hr, hv]
    · rw [if_neg hs]
      exact p2 n slot (fun e => absurd e.symm h3) (Or.inl (fun e => hs e.symm))

/-- Three frames, one sent twice with another value. -/
def three : List Fr :=
  [⟨"data", 2, 1, 50, works, [("id", .u64 5, works), ("note", .other, works)]⟩, ⟨"data", 0, 1, 51, works, [("late", .u32 1, works)]⟩,
   ⟨"data", 2, 1, 52, works, [("id", .u64 6, works)]⟩]

example : (frames false defs1 three file1).2 = [.ok, .ok, .ok] ∧ holds (frames false defs1 three file1).1 "id" 2 = some 6 ∧
    holds (frames false defs1 three file1).1 "data" 2 = some 52 ∧ holds (frames false defs1 three file1).1 "late" 0 = some 1 := by decide

end Verif.Dataset
