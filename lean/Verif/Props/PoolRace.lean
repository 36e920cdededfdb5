import Verif.Model.PoolRace
/-!
C100: all threads use the same pool.
-/
namespace Verif.PoolRace

/-- Thread `t` has been given pool `p`. -/
def Got (s : St) (t p : Nat) : Prop := s.pc t = .has (some p)

/-- C100, full statement: whatever the schedule, all threads that ask for blocks of a size are given the same pool, and no thread is given a
null pointer. -/
def C100_statement : Prop :=
  ∀ (l : List Nat), (∀ t, (run {} l).pc t ≠ .has none) ∧ ∀ t u p q, Got (run {} l) t p → Got (run {} l) u q → p = q

/-- Two threads ask for the first block at the same time. -/
theorem C100_violated : ¬ C100_statement := by
  intro h
  have := (h [0, 1, 0, 0, 1, 1]).2 0 1 0 1 (by unfold Got; decide) (by unfold Got; decide)
  cases this

/-- There is a pool and no thread is about to make another. -/
def Inv (p : Nat) (s : St) : Prop := s.map = some p ∧ ∀ t, s.pc t = .check ∨ s.pc t = .load ∨ s.pc t = .has (some p)

theorem inv_step (p : Nat) (s : St) (t : Nat) (h : Inv p s) : Inv p (step s t) := by
  obtain ⟨h1, h2⟩ := h
  have ht := h2 t
  unfold step
  rcases ht with ht | ht | ht <;> rw [ht] <;> simp only
  · refine ⟨h1, fun u => ?_⟩
    by_cases hu : u = t
    · simp [upd, hu, h1]
    · simpa [upd, hu] using h2 u
  · refine ⟨h1, fun u => ?_⟩
    by_cases hu : u = t
    · simp [upd, hu, h1]
    · simpa [upd, hu] using h2 u
  · exact ⟨h1, h2⟩

theorem inv_run (p : Nat) (l : List Nat) (s : St) (h : Inv p s) : Inv p (run s l) := by
  induction l generalizing s with
  | nil => exact h
  | cons t l ih => exact ih _ (inv_step p s t h)

/-- C100, proved part: if one thread has been given its pool before the others ask. Missing: threads that ask at the same time before there
is a pool. -/
theorem C100_partial (t0 : Nat) (l : List Nat) :
    (∀ t, (run (run {} [t0, t0, t0]) l).pc t ≠ .has none) ∧ Got (run (run {} [t0, t0, t0]) l) t0 0 ∧
      ∀ t p, Got (run (run {} [t0, t0, t0]) l) t p → p = 0 := by
  have h0 : Inv 0 (run {} [t0, t0, t0]) ∧ (run {} [t0, t0, t0]).pc t0 = .has (some 0) := by
    refine ⟨⟨by simp [run, step, upd], fun t => ?_⟩, by simp [run, step, upd]⟩
    by_cases h : t = t0 <;> simp [run, step, upd, h]
  have hi := inv_run 0 l _ h0.1
  refine ⟨fun t e => ?_, ?_, fun t p e => ?_⟩
  · rcases hi.2 t with h | h | h <;> rw [e] at h <;> simp at h
  · have keep : ∀ (l : List Nat) (s : St), s.pc t0 = .has (some 0) → (run s l).pc t0 = .has (some 0) := by
      intro l
      induction l with
      | nil => exact fun s h => h
      | cons u l ih =>
        intro s h
        refine ih _ ?_
        unfold step
        by_cases hu : u = t0
        · subst hu; rw [h]; exact h
        · have hu' : ¬ t0 = u := fun e => hu e.symm
          cases hp : s.pc u <;> simp [upd, hu', h]
    exact keep l _ h0.2
  · unfold Got at e
    rcases hi.2 t with h | h | h <;> rw [e] at h <;> simp at h
    exact h

/-- In every schedule what a thread is given is one of the pools made, never null. -/
theorem C100_made (l : List Nat) (t : Nat) (r : Option Nat) (h : (run {} l).pc t = .has r) : ∃ p, r = some p ∧ p < (run {} l).next := by
  have key : ∀ (l : List Nat) (s : St), ((∀ p, s.map = some p → p < s.next) ∧
      ∀ t, (s.pc t = .load → s.map ≠ none) ∧ (∀ r, s.pc t = .has r → ∃ p, r = some p ∧ p < s.next)) →
      ((∀ p, (run s l).map = some p → p < (run s l).next) ∧
      ∀ t, ((run s l).pc t = .load → (run s l).map ≠ none) ∧ (∀ r, (run s l).pc t = .has r → ∃ p, r = some p ∧ p < (run s l).next)) := by
    intro l
    induction l with
    | nil => exact fun s h => h
    | cons u l ih =>
      intro s ⟨h1, h2⟩
      refine ih _ ?_
      unfold step
      cases hp : s.pc u with
      | check =>
        refine ⟨h1, fun t => ?_⟩
        by_cases ht : t = u
        · subst ht
          cases hm : s.map <;> simp [upd]
        · simpa [upd, ht] using h2 t
      | create =>
        refine ⟨fun p e => ?_, fun t => ?_⟩
        · simp only [Option.some.injEq] at e; show p < s.next + 1; omega
        · by_cases ht : t = u
          · subst ht; simp [upd]
          · refine ⟨fun _ => by simp, fun r e => ?_⟩
            simp only [upd, if_neg ht] at e
            obtain ⟨p, hp, hlt⟩ := (h2 t).2 r e
            exact ⟨p, hp, Nat.lt_succ_of_lt hlt⟩
      | load =>
        refine ⟨h1, fun t => ?_⟩
        by_cases ht : t = u
        · subst ht
          have hne := (h2 t).1 hp
          cases hm : s.map with
          | none => exact absurd hm hne
          | some p =>
            have := h1 p hm
            simpa [upd] using this
        · simpa [upd, ht] using h2 t
      | has r => exact ⟨h1, h2⟩
  exact ((key l {} ⟨fun p e => (by cases e), fun t => ⟨fun e => (by cases e), fun r e => (by cases e)⟩⟩).2 t).2 r h

theorem run_append (s : St) (l m : List Nat) : run s (l ++ m) = run (run s l) m := by simp [run]

/-- Any number of threads may end with a pool each: if all look before the first makes one, the i-th gets pool i. -/
theorem C100_many (n i : Nat) (h : i < n) :
    Got (run {} (List.range n ++ (List.range n).flatMap (fun t => [t, t]))) i i := by
  have look : ∀ n, (run {} (List.range n)).map = none ∧ (run {} (List.range n)).next = 0 ∧
      ∀ t, (run {} (List.range n)).pc t = if t < n then .create else .check := by
    intro n
    induction n with
    | zero => exact ⟨rfl, rfl, fun t => by simp [run]⟩
    | succ n ih =>
      obtain ⟨h1, h2, h3⟩ := ih
      have hs : run {} (List.range (n + 1)) = step (run {} (List.range n)) n := by
        rw [List.range_succ, run_append]; rfl
      have hn := h3 n
      rw [if_neg (by omega)] at hn
      rw [hs]
      unfold step
      rw [hn]
      refine ⟨h1, h2, fun t => ?_⟩
      simp only [upd, h1, Option.isNone_none, if_true]
      by_cases ht : t = n
      · subst ht; simp
      · rw [if_neg ht, h3 t]
        by_cases h' : t < n
        · rw [if_pos h', if_pos (by omega)]
        · rw [if_neg h', if_neg (by omega)]
  have make : ∀ k, k ≤ n → (run (run {} (List.range n)) ((List.range k).flatMap (fun t => [t, t]))).next = k ∧
      ∀ t, t < n → (run (run {} (List.range n)) ((List.range k).flatMap (fun t => [t, t]))).pc t =
        if t < k then .has (some t) else .create := by
    intro k
    induction k with
    | zero =>
      intro _
      refine ⟨(look n).2.1, fun t ht => ?_⟩
      have := (look n).2.2 t
      rw [if_pos ht] at this
      simpa [run] using this
    | succ k ih =>
      intro hk
      obtain ⟨h2, h3⟩ := ih (by omega)
      have hs : run (run {} (List.range n)) ((List.range (k + 1)).flatMap (fun t => [t, t])) =
          step (step (run (run {} (List.range n)) ((List.range k).flatMap (fun t => [t, t]))) k) k := by
        rw [List.range_succ, List.flatMap_append, run_append]
        rfl
      rw [hs]
      generalize run (run {} (List.range n)) ((List.range k).flatMap (fun t => [t, t])) = s at h2 h3
      have hc := h3 k (by omega)
      rw [if_neg (by omega)] at hc
      have e1 : step s k = { map := some s.next, next := s.next + 1, pc := upd s.pc k .load } := by
        unfold step; rw [hc]
      have e2 : step (step s k) k = { map := some k, next := k + 1, pc := upd (upd s.pc k .load) k (.has (some k)) } := by
        rw [e1, h2]
        simp [step, upd]
      rw [e2]
      refine ⟨rfl, fun t ht => ?_⟩
      simp only [upd]
      by_cases e : t = k
      · subst e; simp
      · rw [if_neg e, if_neg e, h3 t ht]
        by_cases h' : t < k
        · rw [if_pos h', if_pos (by omega)]
        · rw [if_neg h', if_neg (by omega)]
  rw [run_append]
  have := (make n (Nat.le_refl n)).2 i h
  rw [if_pos h] at this
  exact this

example : Got (run {} [0, 1, 2, 0, 0, 1, 1, 2, 2]) 2 2 := by unfold Got; decide
example : Got (run (run {} [3, 3, 3]) [1, 2, 2, 1]) 1 0 := by unfold Got; decide

end Verif.PoolRace
