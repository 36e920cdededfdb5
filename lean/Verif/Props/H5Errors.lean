import Verif.Model.H5Errors

/-
C191: A failed call of the HDF5 library is reported once, at once, and with the errors of that call.
-/
namespace Verif.H5Errors

/-- What should be reported of the calls of a member function, the first of which has the number `n + 1`: the first call
that fails, with an entry for each depth. -/
def wanted (n : Nat) (cs : List Call) : Option Report :=
  match cs.findIdx? (fun c => c.result.isSome) with
  | none => none
  | some k =>
    match (cs[k]?).bind (·.result) with
    | none => none
    | some d => some ⟨n + k + 1, some ((List.range (d + 1)).map fun e => (n + k + 1, e))⟩

/-- C191, in full. -/
def C191_statement : Prop :=
  ∀ (empties : Bool) (ops : List Op) (i : Nat) (cs : List Call),
    i < (run empties {} ops).files.length →
    (step empties (run empties {} ops) (.member i cs)).2 = wanted (run empties {} ops).lib.calls cs

/-! ### What a call reports -/

theorem walk_errs (es : List Entry) : ∀ f : File, (walk f es).errs = f.errs ++ es := by
  induction es with
  | nil => intro f; simp [walk]
  | cons e es ih => intro f; rw [walk, ih]; simp

theorem api_calls (l : Lib) (o : Option Nat) : (api l o).calls = l.calls + 1 := rfl

theorem handle_clean (l : Lib) (f : File) (d : Nat) (hf : f.errs = []) :
    (handle (api l (some d)) f).2 =
      ⟨l.calls + 1, some ((List.range (d + 1)).map fun e => (l.calls + 1, e))⟩ := by
  have ht : trace (api l (some d)) (walk f (api l (some d)).stack).errs =
      some ((List.range (d + 1)).map fun e => (l.calls + 1, e)) := by
    rw [walk_errs, hf, List.nil_append]
    show trace (api l (some d)) (entries (l.calls + 1) (l.gen + 1) d) = _
    unfold trace
    rw [if_pos]
    · simp [entries]
    · simp [entries, api]
  show Report.mk _ _ = _
  rw [ht]; rfl

theorem wanted_nil (n : Nat) : wanted n [] = none := rfl

theorem wanted_ok (n : Nat) (c : Call) (cs : List Call) (h : c.result = none) : wanted n (c :: cs) = wanted (n + 1) cs := by
  unfold wanted
  rw [List.findIdx?_cons]
  simp only [h, Option.isSome_none, Bool.false_eq_true, if_false]
  cases hk : cs.findIdx? (fun c => c.result.isSome) with
  | none => simp
  | some k =>
    simp only [Option.map_some, List.getElem?_cons_succ]
    have : n + (k + 1) = n + 1 + k := by omega
    rw [this]

theorem wanted_fail (n : Nat) (c : Call) (cs : List Call) (d : Nat) (h : c.result = some d) :
    wanted n (c :: cs) = some ⟨n + 1, some ((List.range (d + 1)).map fun e => (n + 1, e))⟩ := by
  unfold wanted
  rw [List.findIdx?_cons]
  simp [h]

/-- With no old entries, a function all of whose failing calls are checked reports what it should. -/
theorem member_report (cs : List Call) : ∀ (l : Lib) (f : File), f.errs = [] →
    (∀ c ∈ cs, c.checked = false → c.result = none) → (member cs l f).2.2 = wanted l.calls cs := by
  induction cs with
  | nil => intro l f _ _; rfl
  | cons c cs ih =>
    intro l f hf hc
    rw [member]
    cases hr : c.result with
    | none =>
      rw [if_neg (by simp), wanted_ok _ _ _ hr, ← api_calls l none]
      exact ih _ f hf fun x hx => hc x (List.mem_cons_of_mem _ hx)
    | some d =>
      have hk : c.checked = true := by
        cases hk : c.checked with
        | true => rfl
        | false => have := hc c (List.mem_cons_self ..) hk; rw [hr] at this; cases this
      rw [if_pos (by simp [hk]), wanted_fail _ _ _ d hr]
      show some _ = some _
      rw [handle_clean l f d hf]

/-- A function leaves no entries where there were none. -/
theorem member_clean (cs : List Call) : ∀ (l : Lib) (f : File), f.errs = [] → (member cs l f).2.1.errs = [] := by
  induction cs with
  | nil => intro l f hf; exact hf
  | cons c cs ih =>
    intro l f hf
    rw [member]
    split
    · rfl
    · exact ih _ f hf

/-- And none at all once it has reported. -/
theorem member_cleans (cs : List Call) : ∀ (l : Lib) (f : File) (r : Report), (member cs l f).2.2 = some r →
    (member cs l f).2.1 = {} := by
  induction cs with
  | nil => intro l f r h; cases h
  | cons c cs ih =>
    intro l f r h
    rw [member] at h ⊢
    split at h
    · rename_i hc
      rw [if_pos hc]; rfl
    · rename_i hc
      rw [if_neg hc]; exact ih _ f r h

/-! ### The file objects -/

/-- The library had no errors when the first file object was made, or its stack was emptied then. -/
def quiet (empties : Bool) (w : World) : List Op → Prop
  | [] => True
  | o :: os => (o = .construct → w.init = false → empties = true ∨ w.lib.stack = []) ∧ quiet empties (step empties w o).1 os

theorem construct_clean (empties : Bool) (w : World) (h : ∀ f ∈ w.files, f.errs = [])
    (hq : w.init = false → empties = true ∨ w.lib.stack = []) : ∀ f ∈ (construct empties w).files, f.errs = [] := by
  intro f hf
  unfold construct at hf
  split at hf
  · rcases List.mem_append.1 hf with hf | hf
    · exact h f hf
    · rw [List.mem_singleton.1 hf]
  · rename_i hi
    split at hf
    · rcases List.mem_append.1 hf with hf | hf
      · exact h f hf
      · rw [List.mem_singleton.1 hf, walk_errs]; rfl
    · rename_i he
      rcases List.mem_append.1 hf with hf | hf
      · exact h f hf
      · rcases hq (by simpa using hi) with hq | hq
        · exact absurd hq he
        · rw [List.mem_singleton.1 hf, walk_errs, hq]; rfl

theorem step_clean (empties : Bool) (w : World) (o : Op) (h : ∀ f ∈ w.files, f.errs = [])
    (hq : o = .construct → w.init = false → empties = true ∨ w.lib.stack = []) :
    ∀ f ∈ (step empties w o).1.files, f.errs = [] := by
  cases o with
  | construct => exact construct_clean empties w h (hq rfl)
  | other o => exact h
  | member i cs =>
    rw [step]
    cases hi : w.files[i]? with
    | none => exact h
    | some g =>
      intro f hf
      have hf : f ∈ w.files.set i (member cs w.lib g).2.1 := hf
      rcases List.mem_or_eq_of_mem_set hf with hf | hf
      · exact h f hf
      · rw [hf]; exact member_clean cs _ g (h g (List.mem_of_getElem? hi))

theorem run_clean (empties : Bool) (ops : List Op) : ∀ w : World, (∀ f ∈ w.files, f.errs = []) → quiet empties w ops →
    ∀ f ∈ (run empties w ops).files, f.errs = [] := by
  induction ops with
  | nil => intro w h _; exact h
  | cons o os ih => intro w h hq; exact ih _ (step_clean empties w o h hq.1) hq.2

/-! ### C191 -/

/-- The dataset is made, and the attribute for the low index is not: `H5Acreate2` fails two functions deep, `H5Awrite` is
given no attribute. -/
def lowIndex : List Call :=
  [⟨true, none⟩, ⟨false, some 2⟩, ⟨true, some 0⟩, ⟨true, none⟩, ⟨true, none⟩]

/-- The report is of `H5Awrite`; why the attribute was not made is lost. -/
theorem C191_violated : ¬ C191_statement := by
  intro h
  have := h true [.construct] 0 lowIndex (by decide)
  revert this
  decide

/-- What is reported there: the third call, with the one error of that call. -/
theorem C191_attribute :
    (step true (run true {} [.construct]) (.member 0 lowIndex)).2 = some ⟨3, some [(3, 0)]⟩ ∧
    wanted 0 lowIndex = some ⟨2, some [(2, 0), (2, 1), (2, 2)]⟩ := by decide

/-- Where something else in the process has met an error of the library before the first file object is made, the entries
are copied into that object, and are read with the next error, when their texts have been freed. -/
theorem C191_stale (d : Nat) (e : Nat) (cs : List Call) :
    (step false (run false {} [.other (some d), .construct]) (.member 0 (⟨true, some e⟩ :: cs))).2 = some ⟨2, none⟩ := by
  have ht : trace (api (api {} (some d)) (some e))
      (walk (walk (File.mk [] false) (api {} (some d)).stack) (api (api {} (some d)) (some e)).stack).errs = none := by
    rw [walk_errs, walk_errs]
    unfold trace
    rw [if_neg]
    intro h
    rw [List.all_eq_true] at h
    have := h ⟨1, 0, 1⟩ (by
      refine List.mem_append_left _ (List.mem_append_right _ ?_)
      show _ ∈ entries 1 1 d
      exact List.mem_map.2 ⟨0, by simp, rfl⟩)
    simp [api] at this
  show some (Report.mk 2 (trace (api (api {} (some d)) (some e))
      (walk (walk (File.mk [] false) (api {} (some d)).stack) (api (api {} (some d)) (some e)).stack).errs)) = _
  rw [ht]

/-- If nothing went wrong in the library before the first file object was made, or the stack was emptied then, and the
results that are not checked are good, every failed call is reported as it should be, whatever was before: other
errors, other files, other uses of the library. -/
theorem C191_partial (empties : Bool) (ops : List Op) (i : Nat) (cs : List Call)
    (hi : i < (run empties {} ops).files.length) (hq : quiet empties {} ops)
    (hc : ∀ c ∈ cs, c.checked = false → c.result = none) :
    (step empties (run empties {} ops) (.member i cs)).2 = wanted (run empties {} ops).lib.calls cs := by
  have hf := run_clean empties ops {} (fun f h => by cases h) hq
  rw [step, List.getElem?_eq_getElem hi]
  exact member_report cs _ _ (hf _ (List.getElem_mem hi)) hc

/-- A file object that has reported an error has no old entries: the next report is as it should be, even of the first
object. -/
theorem C191_next (l : Lib) (f : File) (cs ds : List Call) (r : Report) (h : (member cs l f).2.2 = some r)
    (hc : ∀ c ∈ ds, c.checked = false → c.result = none) :
    (member ds (member cs l f).1 (member cs l f).2.1).2.2 = wanted (member cs l f).1.calls ds :=
  member_report ds _ _ (by rw [member_cleans cs l f r h]) hc

/-- Each call that is not checked is followed by one that is, and that fails if the first does. -/
def followed : List Call → Bool
  | [] => true
  | [c] => c.checked
  | c :: d :: cs => (c.checked || d.checked && (!c.result.isSome || d.result.isSome)) && followed (d :: cs)

/-- Then no failure goes without a report: the first failed call is reported, or the one after it, with the errors of
the call that is reported. -/
theorem C191_close (cs : List Call) : ∀ (l : Lib) (f : File), f.errs = [] → followed cs = true →
    match cs.findIdx? (fun c => c.result.isSome) with
    | none => (member cs l f).2.2 = none
    | some k => ∃ j d, (j = k ∨ j = k + 1) ∧ (cs[j]?).bind (·.result) = some d ∧
        (member cs l f).2.2 = some ⟨l.calls + j + 1, some ((List.range (d + 1)).map fun e => (l.calls + j + 1, e))⟩ := by
  induction cs with
  | nil => intro l f _ _; rfl
  | cons c cs ih =>
    intro l f hf hw
    have hw' : followed cs = true := by
      cases cs with
      | nil => rfl
      | cons d cs => simp only [followed, Bool.and_eq_true] at hw; exact hw.2
    rw [List.findIdx?_cons]
    cases hr : c.result with
    | none =>
      have hm : member (c :: cs) l f = member cs (api l none) f := by rw [member, hr, if_neg (by simp)]
      simp only [Option.isSome_none, Bool.false_eq_true, if_false]
      have := ih (api l none) f hf hw'
      cases hk : cs.findIdx? (fun c => c.result.isSome) with
      | none => rw [hk] at this; simp only [Option.map_none]; rw [hm]; exact this
      | some k =>
        rw [hk] at this
        obtain ⟨j, d, hj, hd, hp⟩ := this
        simp only [Option.map_some]
        refine ⟨j + 1, d, by omega, by simpa using hd, ?_⟩
        rw [hm, hp, api_calls]
        have : l.calls + 1 + j + 1 = l.calls + (j + 1) + 1 := by omega
        rw [this]
    | some d =>
      simp only [Option.isSome_some, if_true]
      cases hk : c.checked with
      | true =>
        refine ⟨0, d, Or.inl rfl, by simp [hr], ?_⟩
        rw [member, hr, if_pos (by simp [hk])]
        show some _ = some _
        rw [handle_clean l f d hf]
      | false =>
        cases cs with
        | nil => simp [followed, hk] at hw
        | cons x cs =>
          simp only [followed, hk, hr, Bool.false_or, Bool.and_eq_true, Option.isSome_some, Bool.not_true] at hw
          obtain ⟨e, he⟩ := Option.isSome_iff_exists.1 hw.1.2
          refine ⟨1, e, Or.inr rfl, by simp [he], ?_⟩
          rw [member, hr, if_neg (by simp [hk]), member, he, if_pos (by simp [hw.1.1])]
          show some _ = some _
          rw [handle_clean (api l (some d)) f e hf]
          rfl

/-- So it is with the attributes: whatever fails, if nothing can be written to an attribute that was not made. -/
theorem C191_attributes (rs : List (Option Nat)) (hl : rs.length = 10)
    (h₁ : (rs[1]?.join).isSome → (rs[2]?.join).isSome) (h₂ : (rs[6]?.join).isSome → (rs[7]?.join).isSome) :
    followed ((attributesChecked.zip rs).map fun p => ⟨p.1, p.2⟩) = true := by
  match rs, hl with
  | [a, b, c, d, e, f, g, h, i, j], _ =>
    have h₁ : b.isSome → c.isSome := by simpa using h₁
    have h₂ : g.isSome → h.isSome := by simpa using h₂
    cases b <;> cases c <;> cases g <;> cases h <;> simp_all [attributesChecked, followed]

/-! Concrete cases. -/

/-- Two files, an error of something else between them; the second file fails at its second call. -/
example :
    let ops : List Op := [.construct, .member 0 [⟨true, none⟩, ⟨true, some 1⟩], .other (some 3), .construct]
    quiet false {} ops ∧
    (step false (run false {} ops) (.member 1 [⟨true, none⟩, ⟨true, some 2⟩, ⟨true, none⟩])).2 =
      some ⟨5, some [(5, 0), (5, 1), (5, 2)]⟩ := by
  refine ⟨⟨fun _ _ => Or.inr rfl, ⟨(by intro h; cases h), ⟨(by intro h; cases h), ⟨?_, trivial⟩⟩⟩⟩, by decide⟩
  intro _ h
  revert h
  decide

example : followed lowIndex = true := by decide
example : (step false (run false {} [.other (some 1), .construct]) (.member 0 [⟨true, some 0⟩])).2 = some ⟨2, none⟩ := by decide
example : (step true (run true {} [.other (some 1), .construct]) (.member 0 [⟨true, some 0⟩])).2 = some ⟨2, some [(2, 0)]⟩ := by
  decide

end Verif.H5Errors
