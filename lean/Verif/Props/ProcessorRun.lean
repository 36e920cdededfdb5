import Verif.Model.ProcessorRun
import Verif.Lemmas.StdMap
/-
C49: executing stored configurations terminates.
C78: the configuration file is applied.
C79: the processor shuts down after the number of frames asked for.
-/
namespace Verif.ProcessorRun
open Verif.StdMap

/-- C49: every message is dealt with in a finite number of calls. -/
def C49_statement : Prop := ∀ (st : Map (List Cfg)) (c : Cfg), ∃ n, run n st [c] ≠ none

/-- A message that stores a configuration which executes itself, and executes it. -/
def exLoop : Cfg := .mk 1 false (some ("a", [.mk 2 false none (some "a")])) (some "a")

theorem loop_none (n : Nat) (st : Map (List Cfg)) (h : find st "a" = some [.mk 2 false none (some "a")]) :
    run n st [.mk 2 false none (some "a")] = none := by
  induction n with
  | zero => rfl
  | succ n ih =>
    have e : todo (put st (Cfg.mk 2 false none (some "a")).store) (Cfg.mk 2 false none (some "a")).exec =
        [.mk 2 false none (some "a")] := by
      simp [todo, put, Cfg.store, Cfg.exec, h]
    simp only [run, Cfg.bad, Bool.false_eq_true, ↓reduceIte]
    rw [e]
    have : put st (Cfg.mk 2 false none (some "a")).store = st := rfl
    rw [this, ih]

/-- C49 fails: a single message to a processor without stored configurations recurses for ever. -/
theorem C49_violated : ¬ C49_statement := by
  intro h
  obtain ⟨n, hn⟩ := h [] exLoop
  apply hn
  cases n with
  | zero => rfl
  | succ n =>
    simp only [run, exLoop, Cfg.bad, Bool.false_eq_true, ↓reduceIte]
    have e : todo (put [] (Cfg.mk 1 false (some ("a", [.mk 2 false none (some "a")])) (some "a")).store)
        (Cfg.mk 1 false (some ("a", [.mk 2 false none (some "a")])) (some "a")).exec = [.mk 2 false none (some "a")] := by
      simp [todo, put, Cfg.store, Cfg.exec, StdMap.set, find]
    rw [e, loop_none n _ (by simp [put, Cfg.store, StdMap.set, find])]

/-- More calls change nothing. -/
theorem run_mono (n : Nat) (st : Map (List Cfg)) (cs : List Cfg) (r : Res) (h : run n st cs = some r) :
    run (n + 1) st cs = some r := by
  induction n generalizing st cs r with
  | zero => cases h
  | succ n ih =>
    cases cs with
    | nil => exact h
    | cons c cs =>
      unfold run at h ⊢
      split
      · rename_i hb; rw [if_pos hb] at h; exact h
      · rename_i hb
        rw [if_neg hb] at h
        cases h1 : run n (put st c.store) (todo (put st c.store) c.exec) with
        | none => rw [h1] at h; cases h
        | some r1 =>
          rw [ih _ _ _ h1]
          rw [h1] at h
          simp only at h ⊢
          split
          · rename_i ht; rw [if_pos ht] at h; exact h
          · rename_i ht
            rw [if_neg ht] at h
            cases h2 : run n r1.stored cs with
            | none => rw [h2] at h; cases h
            | some r2 =>
              rw [ih _ _ _ h2]
              rw [h2] at h
              exact h

theorem run_le (n m : Nat) (st : Map (List Cfg)) (cs : List Cfg) (r : Res) (h : run n st cs = some r) (hm : n ≤ m) :
    run m st cs = some r := by
  induction m with
  | zero => have : n = 0 := by omega
            subst this; exact h
  | succ m ih =>
    by_cases e : n = m + 1
    · subst e; exact h
    · exact run_mono _ _ _ _ (ih (by omega))

/-- C49: the outcome does not depend on the number of calls. -/
theorem C49_unique (n m : Nat) (st : Map (List Cfg)) (cs : List Cfg) (r r' : Res) (h : run n st cs = some r)
    (h' : run m st cs = some r') : r = r' := by
  have h1 := run_le n (max n m) st cs r h (by omega)
  have h2 := run_le m (max n m) st cs r' h' (by omega)
  rw [h1] at h2
  cases h2
  rfl

/-- Names have ranks, and a message stored under a name (at any depth) executes only names of lower rank. -/
inductive Okay (rank : String → Nat) : Nat → Cfg → Prop
  | mk (b : Nat) (id : Nat) (bad : Bool) (store : Option (String × List Cfg)) (exec : Option String) :
      (∀ i, exec = some i → rank i < b) → (∀ i v, store = some (i, v) → ∀ d ∈ v, Okay rank (rank i) d) →
      Okay rank b (.mk id bad store exec)

def StoreOk (rank : String → Nat) (st : Map (List Cfg)) : Prop :=
  Ordered st ∧ ∀ i v, find st i = some v → ∀ d ∈ v, Okay rank (rank i) d

theorem put_ok (rank : String → Nat) (st : Map (List Cfg)) (b : Nat) (c : Cfg) (hs : StoreOk rank st) (hc : Okay rank b c) :
    StoreOk rank (put st c.store) := by
  cases hc with
  | mk _ id bad store exec h1 h2 =>
    cases store with
    | none => exact hs
    | some x =>
      obtain ⟨i, v⟩ := x
      refine ⟨ordered_set _ _ _ hs.1, fun j w hj d hd => ?_⟩
      simp only [put, Cfg.store] at hj
      rw [find_set _ _ _ _ hs.1] at hj
      split at hj
      · rename_i e
        subst e
        simp only [Option.some.injEq] at hj
        subst hj
        exact h2 i v rfl d hd
      · exact hs.2 j w hj d hd

/-- C49, for messages and stored configurations whose executions do not form a cycle: every list of messages is
dealt with. -/
theorem C49_partial (rank : String → Nat) (b : Nat) (st : Map (List Cfg)) (cs : List Cfg) (hs : StoreOk rank st)
    (hc : ∀ c ∈ cs, Okay rank b c) : ∃ n r, run n st cs = some r ∧ StoreOk rank r.stored := by
  induction b using Nat.strongRecOn generalizing st cs with
  | ind b ihb =>
    induction cs generalizing st with
    | nil => exact ⟨1, _, rfl, hs⟩
    | cons c cs ih =>
      have hcc := hc c (by simp)
      by_cases hbad : c.bad = true
      · exact ⟨1, ⟨st, [], true⟩, by simp [run, hbad], hs⟩
      · have hs1 := put_ok rank st b c hs hcc
        have h1 : ∃ n r, run n (put st c.store) (todo (put st c.store) c.exec) = some r ∧ StoreOk rank r.stored := by
          cases hx : c.exec with
          | none => exact ⟨1, _, rfl, hs1⟩
          | some i =>
            have hlt : rank i < b := by
              cases hcc with
              | mk _ id bad store exec h1 h2 => exact h1 i hx
            refine ihb (rank i) hlt _ _ hs1 ?_
            intro d hd
            simp only [todo] at hd
            cases hf : find (put st c.store) i with
            | none => rw [hf] at hd; cases hd
            | some v =>
              rw [hf] at hd
              exact hs1.2 i v hf d hd
        obtain ⟨n1, r1, h1, hr1⟩ := h1
        by_cases ht : r1.threw = true
        · refine ⟨n1 + 1, { r1 with trace := .ctrl c.id :: r1.trace }, ?_, hr1⟩
          simp [run, hbad, h1, ht]
        · obtain ⟨n2, r2, h2, hr2⟩ := ih r1.stored hr1 (fun d hd => hc d (List.mem_cons_of_mem _ hd))
          refine ⟨max n1 n2 + 1, { r2 with trace := .ctrl c.id :: (r1.trace ++ .plugins c.id :: r2.trace) }, ?_, hr2⟩
          have e1 := run_le n1 (max n1 n2) _ _ _ h1 (by omega)
          have e2 := run_le n2 (max n1 n2) _ _ _ h2 (by omega)
          simp [run, hbad, e1, ht, e2]

/-- Non-vacuity: "b" executes "a" twice; a message stores a new "a" and executes "b". -/
example : ∃ n r, run n [("b", [.mk 1 false none (some "a"), .mk 2 false none (some "a")])]
    [.mk 3 false (some ("a", [.mk 4 false none none])) (some "b")] = some r ∧
    r.trace = [.ctrl 3, .ctrl 1, .ctrl 4, .plugins 4, .plugins 1, .ctrl 2, .ctrl 4, .plugins 4, .plugins 2, .plugins 3] := by
  exact ⟨5, _, rfl, by decide +kernel⟩
example : Okay (fun s => if s = "b" then 1 else 0) 2 (.mk 3 false (some ("a", [.mk 4 false none none])) (some "b")) := by
  refine .mk _ _ _ _ _ (fun i h => ?_) (fun i v h d hd => ?_)
  · cases h; decide
  · simp only [Option.some.injEq, Prod.mk.injEq] at h
    obtain ⟨rfl, rfl⟩ := h
    simp only [List.mem_singleton] at hd
    subst hd
    exact .mk _ _ _ _ _ (fun i h => by cases h) (fun i v h => by cases h)

/-! C78 -/

/-- The objects in the file, in order. -/
def objects : File → List Cfg
  | .array cs => cs
  | .object c => [c]

/-- C78: the messages submitted to the controller at the start are the objects in the configuration file. -/
def C78_statement : Prop := ∀ f : File, submitted f = objects f

/-- C78 fails: a file with a single object is ignored. -/
theorem C78_violated : ¬ C78_statement := by
  intro h
  have := h (.object (.mk 7 false none none))
  simp [submitted, objects, emptyCfg] at this

/-- For a single object nothing of the file is used. -/
theorem C78_ignored (c c' : Cfg) : submitted (.object c) = submitted (.object c') := rfl

/-- C78 for files that contain an array. -/
theorem C78_partial (cs : List Cfg) : submitted (.array cs) = objects (.array cs) := rfl

/-! C79 -/

/-- What is asked for: the number of frames of the last message that gave one. -/
def wanted : List Op → Option Nat
  | [] => none
  | o :: os =>
    match wanted os, o with
    | some n, _ => some n
    | none, .frames n => if n = 0 then none else some n
    | none, _ => none

/-- The master dataset, and the number of frames of it so far. -/
def seen (m : String) : List Op → Nat
  | [] => 0
  | .frame d eoa :: os => (if eoa = false ∧ (m = "" ∨ d = m) then 1 else 0) + seen m os
  | .master m' :: os => seen m' os
  | _ :: os => seen m os

/-- C79: with the last operation a frame, the shutdown is signalled exactly if a number of frames has been asked
for and has been reached with this frame. -/
def C79_statement : Prop := ∀ (garbage : Int) (os : List Op) (d : String) (eoa : Bool),
  (signals (init garbage) (os ++ [.frame d eoa])).getLast? =
    some (decide (wanted os = some (seen "" (os ++ [.frame d eoa])) ∧ seen "" os < seen "" (os ++ [.frame d eoa])))

/-- C79 fails: the number of frames is not initialised, so that a processor that was not asked to shut down may do
so after any number of frames. -/
theorem C79_violated : ¬ C79_statement := by
  intro h
  have := h 1 [] "d" false
  revert this
  decide

/-- An end of acquisition counts as a frame: with 2 frames asked for, the shutdown comes after the first. -/
theorem C79_eoa (g : Int) : signals (init g) [.frames 2, .frame "d" false, .frame "" true] = [false, false, true] := by
  rfl

/-- A number that has been passed already is never reached. -/
theorem C79_passed (s : Count) (n : Nat) (hn : n ≠ 0) (hs : n ≤ s.total) (fs : List String) (hm : s.master = "") :
    ∀ b ∈ signals (step s (.frames n)).1 (fs.map (fun d => .frame d false)), b = false := by
  have : ∀ (fs : List String) (s : Count), s.limit ≤ s.total → s.master = "" →
      ∀ b ∈ signals s (fs.map (fun d => Op.frame d false)), b = false := by
    intro fs
    induction fs with
    | nil => intro s _ _ b hb; cases hb
    | cons d fs ih =>
      intro s h1 h2 b hb
      have e : bump s d = { s with total := s.total + 1 } := by simp [bump, h2]
      simp only [List.map_cons, signals, step, e, List.mem_cons] at hb
      rcases hb with hb | hb
      · rw [hb, beq_eq_false_iff_ne]
        show s.total + 1 ≠ s.limit
        omega
      · exact ih { s with total := s.total + 1 } (by show s.limit ≤ s.total + 1; omega) h2 b hb
  apply this
  · simp only [step, hn, ne_eq, not_false_eq_true, ↓reduceIte]
    exact hs
  · simp only [step, hn, ne_eq, not_false_eq_true, ↓reduceIte]
    exact hm

theorem bump_limit (s : Count) (d : String) : (bump s d).limit = s.limit := by unfold bump; split <;> rfl
theorem bump_master (s : Count) (d : String) : (bump s d).master = s.master := by unfold bump; split <;> rfl

theorem frames_state (s : Count) (fs : List (String)) :
    let t := (fs.map (fun d => Op.frame d false)).foldl (fun s o => (step s o).1) s
    t.total = s.total + seen s.master (fs.map (fun d => Op.frame d false)) ∧ t.limit = s.limit ∧ t.master = s.master := by
  induction fs generalizing s with
  | nil => simp [seen]
  | cons d fs ih =>
    simp only [List.map_cons, List.foldl_cons]
    have := ih (step s (.frame d false)).1
    simp only [step, bump_master, bump_limit] at this ⊢
    refine ⟨?_, this.2.1, this.2.2⟩
    rw [this.1]
    simp only [seen, bump, true_and]
    split
    · simp only [Int.natCast_add]; omega
    · simp

theorem signals_append (s : Count) (os : List Op) (o : Op) :
    signals s (os ++ [o]) = signals s os ++ [(step (os.foldl (fun s o => (step s o).1) s) o).2] := by
  induction os generalizing s with
  | nil => rfl
  | cons p os ih => simp only [List.cons_append, signals, ih, List.foldl_cons]

/-- C79, for a processor told the number of frames and the master dataset at the start, as long as no acquisition is
ended: the shutdown is signalled with the last frame of that number, and not before. -/
theorem C79_partial (garbage : Int) (n : Nat) (hn : n ≠ 0) (m : String) (fs : List String) (d : String)
    (hd : m = "" ∨ d = m) :
    (signals (init garbage) ([.frames n, .master m] ++ fs.map (fun d => .frame d false) ++ [.frame d false])).getLast? =
      some (decide (seen m (fs.map (fun d => .frame d false)) + 1 = n)) := by
  rw [signals_append]
  simp only [List.getLast?_append, List.getLast?_singleton, Option.some_or, Option.some.injEq, List.foldl_append,
    List.foldl_cons, List.foldl_nil]
  have e : (step (step (init garbage) (.frames n)).1 (.master m)).1 = { total := 0, limit := n, master := m } := by
    simp [step, init, hn]
  rw [e]
  obtain ⟨h1, h2, h3⟩ := frames_state { total := 0, limit := n, master := m } fs
  generalize (fs.map (fun d => Op.frame d false)).foldl (fun s o => (step s o).1) { total := 0, limit := n, master := m } = t at h1 h2 h3
  simp only at h1 h2 h3
  have hb : bump t d = { t with total := t.total + 1 } := by
    unfold bump
    rw [if_pos]
    rw [h3]; exact hd
  simp only [step, hb, h1, h2]
  rw [Bool.eq_iff_iff]
  simp only [beq_iff_eq, decide_eq_true_eq]
  omega

/-- Non-vacuity: three frames of "data" asked for; frames of another dataset are not counted. -/
example : signals (init 0) [.frames 3, .master "data", .frame "data" false, .frame "other" false, .frame "data" false,
    .frame "other" false, .frame "data" false] = [false, false, false, false, false, false, true] := by decide +kernel

end Verif.ProcessorRun
