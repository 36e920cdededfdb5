import Verif.Model.Meta
/-!
C99: every meta data message is published.
-/
namespace Verif.Meta

variable {α : Type}

/-- The messages plugin `p` has asked to publish. -/
def asked (p : Nat) (l : List (Op α)) : List α :=
  l.filterMap (fun o => match o with | .publish q m => if q = p then some m else none | .handle _ => none)

/-- Those of plugin `p` in a list. -/
def of (p : Nat) (l : List (Nat × α)) : List α := (l.filter (fun x => x.1 = p)).map (·.2)

/-- C99, full statement: in every history nothing is lost, and of every plugin what has been published is what was asked for, in order,
up to what is still under way. -/
def C99_statement : Prop :=
  ∀ (cap : Nat) (l : List (Op Nat)), 0 < cap → (run cap {} l).lost = [] ∧
    ∀ p, of p (run cap {} l).sent ++ (run cap {} l).pipe p = asked p l

theorem asked_snoc (p : Nat) (l : List (Op α)) (o : Op α) : asked p (l ++ [o]) = asked p l ++ asked p [o] := by
  simp [asked]

theorem of_snoc (p q : Nat) (l : List (Nat × α)) (m : α) : of p (l ++ [(q, m)]) = of p l ++ (if q = p then [m] else []) := by
  unfold of
  by_cases h : q = p <;> simp [h]

/-- Splitting a list into two, in order. -/
inductive Split : List α → List α → List α → Prop
  | nil : Split [] [] []
  | left (l a b : List α) (x : α) : Split l a b → Split (l ++ [x]) (a ++ [x]) b
  | right (l a b : List α) (x : α) : Split l a b → Split (l ++ [x]) a (b ++ [x])

theorem step_split (cap : Nat) (s : St α) (o : Op α) (p : Nat) (l : List α)
    (h : Split l (of p s.sent ++ s.pipe p) (of p s.lost)) :
    Split (l ++ asked p [o]) (of p (step cap s o).sent ++ (step cap s o).pipe p) (of p (step cap s o).lost) := by
  cases o with
  | publish q m =>
    by_cases hq : q = p
    · subst hq
      have ha : asked q [Op.publish q m] = [m] := by simp [asked]
      rw [ha]
      simp only [step]
      split
      · simp only [upd, if_true]
        rw [← List.append_assoc]
        exact Split.left _ _ _ _ h
      · rw [of_snoc, if_pos rfl]
        exact Split.right _ _ _ _ h
    · have ha : asked p [Op.publish q m] = [] := by simp [asked, hq]
      rw [ha, List.append_nil]
      simp only [step]
      split
      · simp only [upd, if_neg (fun e => hq (Eq.symm e))]
        exact h
      · rw [of_snoc, if_neg hq, List.append_nil]
        exact h
  | handle q =>
    have ha : asked p [Op.handle (α := α) q] = [] := by simp [asked]
    rw [ha, List.append_nil]
    simp only [step]
    cases hp : s.pipe q with
    | nil => exact h
    | cons m r =>
      simp only
      rw [of_snoc]
      by_cases hq : q = p
      · subst hq
        rw [hp] at h
        simpa [upd] using h
      · simp only [upd, if_neg hq, if_neg (fun e => hq (Eq.symm e)), List.append_nil]
        exact h

theorem run_split (cap : Nat) (p : Nat) (l : List (Op α)) :
    Split (asked p l) (of p (run cap {} l).sent ++ (run cap {} l).pipe p) (of p (run cap {} l).lost) := by
  have key : ∀ (l pre : List (Op α)) (s : St α), Split (asked p pre) (of p s.sent ++ s.pipe p) (of p s.lost) →
      Split (asked p (pre ++ l)) (of p (run cap s l).sent ++ (run cap s l).pipe p) (of p (run cap s l).lost) := by
    intro l
    induction l with
    | nil => intro pre s h; simpa [run] using h
    | cons o l ih =>
      intro pre s h
      have h1 := step_split cap s o p _ h
      rw [← asked_snoc] at h1
      have := ih (pre ++ [o]) (step cap s o) h1
      simpa [run] using this
  exact key l [] {} Split.nil

/-- C99: in every history the messages of a plugin are split, in order, into those published or under way and those lost: nothing is
published twice, out of order, or made up. -/
theorem C99_split (cap : Nat) (p : Nat) (l : List (Op α)) :
    Split (asked p l) (of p (run cap {} l).sent ++ (run cap {} l).pipe p) (of p (run cap {} l).lost) := run_split cap p l

theorem split_nil (l a : List α) (h : Split l a []) : a = l := by
  have : ∀ (l a b : List α), Split l a b → b = [] → a = l := by
    intro l a b h
    induction h with
    | nil => intro _; rfl
    | left l a b x _ ih => intro e; rw [ih e]
    | right l a b x _ ih => intro e; simp at e
  exact this l a [] h rfl

theorem of_nil (l : List (Nat × α)) (h : ∀ p, of p l = []) : l = [] := by
  cases l with
  | nil => rfl
  | cons x l => have := h x.1; simp [of] at this

/-- C99, proved part: if a plugin never asks while its pipe is full. -/
theorem C99_partial (cap : Nat) (l : List (Op α))
    (h : ∀ (pre post : List (Op α)) (p : Nat) (m : α), l = pre ++ Op.publish p m :: post → ((run cap {} pre).pipe p).length < cap) :
    (run cap {} l).lost = [] ∧ ∀ p, of p (run cap {} l).sent ++ (run cap {} l).pipe p = asked p l := by
  have hl : (run cap {} l).lost = [] := by
    have key : ∀ (post pre : List (Op α)), l = pre ++ post → (run cap {} pre).lost = [] → (run cap (run cap {} pre) post).lost = [] := by
      intro post
      induction post with
      | nil => intro pre _ h; exact h
      | cons o post ih =>
        intro pre e h0
        have hs : run cap {} (pre ++ [o]) = step cap (run cap {} pre) o := by simp [run]
        have h1 : (run cap {} (pre ++ [o])).lost = [] := by
          rw [hs]
          cases o with
          | publish p m =>
            simp only [step]
            rw [if_pos (h pre post p m e)]
            exact h0
          | handle p =>
            simp only [step]
            split <;> exact h0
        have := ih (pre ++ [o]) (by simp [e]) h1
        rw [hs] at this
        exact this
    exact key l [] rfl rfl
  refine ⟨hl, fun p => ?_⟩
  have := run_split cap p l
  rw [hl] at this
  exact split_nil _ _ this

/-- One message more than the pipe holds, while the controller is busy. -/
theorem C99_violated : ¬ C99_statement := by
  intro h
  have := (h 1 [.publish 0 7, .publish 0 8] (by decide)).1
  revert this
  decide

/-- Whenever the pipe is full the message is lost, and so is the memory of its object. -/
theorem C99_lost (cap : Nat) (s : St α) (p : Nat) (m : α) (h : (s.pipe p).length = cap) :
    (step cap s (.publish p m)).lost = s.lost ++ [(p, m)] ∧ (step cap s (.publish p m)).pipe = s.pipe := by
  simp only [step]
  rw [if_neg (by omega)]
  exact ⟨rfl, rfl⟩

example : (run 2 {} [.publish 0 7, .publish 1 8, .publish 0 9, .handle 1, .handle 0]).sent = [(1, 8), (0, 7)] := by decide

end Verif.Meta
