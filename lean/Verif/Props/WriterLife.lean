import Verif.Model.WriterLife
/-
C181: destroying the file writer uses no member after its end.
-/
namespace Verif.WriterLife

/-- The full claim: after any history, whichever calls fail, the destructor uses no member that has been destroyed. -/
def C181_statement : Prop :=
  ∀ evs a b m, delete declared (run evs) a b ≠ .ub m

/-- A dataset that HDF5 refuses leaves the file open, without the writer writing; the limits are destroyed before the acquisition. -/
theorem C181_violated : ¬ C181_statement := by
  intro h
  exact h [.start true .noDataset] true true .current (by decide)

/-- So does a file that could not be closed. -/
theorem C181_not_closed : delete declared (run [.start true .good, .stop true false]) true true = .ub .current ∧
    delete declared (run [.start true .good, .nextFile true .good, .stop false true]) true true = .ub .current := by decide

theorem stop_writing (s : St) (a b : Bool) (h : (stop s a b).2 = .ok) (hw : s.writing = true) :
    (stop s a b).1.cur ≠ .opened ∧ (stop s a b).1.prev ≠ .opened := by
  obtain ⟨w, p, c⟩ := s
  cases w
  · cases hw
  · revert h
    cases p <;> cases c <;> cases a <;> cases b <;> decide

/-- Exactly then: the writer is not writing, and a file of its last acquisition is open. -/
theorem C181_exactly (s : St) (a b : Bool) (m : Member) :
    delete declared s a b = .ub m ↔ m = .current ∧ s.writing = false ∧ (s.cur = .opened ∨ s.prev = .opened) := by
  obtain ⟨w, p, c⟩ := s
  cases w <;> cases p <;> cases c <;> cases a <;> cases b <;> cases m <;> decide

/-- An event in which what is opened is also closed. -/
def Closing : Ev → Prop
  | .start _ m => m ≠ .noDataset
  | .nextFile _ _ => True
  | .stop a b => a = true ∧ b = true

/-- Without the writer writing there is no open file. -/
def Shut (s : St) : Prop := s.writing = false → s.cur ≠ .opened ∧ s.prev ≠ .opened

theorem shut_step (s : St) (e : Ev) (hs : Shut s) (he : Closing e) : Shut (step s e) := by
  obtain ⟨w, p, c⟩ := s
  cases e with
  | start n m =>
    revert hs he
    unfold Shut Closing
    cases w <;> cases p <;> cases c <;> cases n <;> cases m <;> decide
  | nextFile k m =>
    revert hs
    unfold Shut
    cases w <;> cases p <;> cases c <;> cases k <;> cases m <;> decide
  | stop a b =>
    obtain ⟨rfl, rfl⟩ := he
    revert hs
    unfold Shut
    cases w <;> cases p <;> cases c <;> decide

theorem shut_run (evs : List Ev) (h : ∀ e ∈ evs, Closing e) : ∀ s, Shut s → Shut (evs.foldl step s) := by
  induction evs with
  | nil => exact fun _ hs => hs
  | cons e evs ih =>
    exact fun s hs => ih (fun x hx => h x (by simp [hx])) _ (shut_step s e hs (h e (by simp)))

/-- What holds: true of every history in which no acquisition was started that got a file but not its datasets, and files to be
closed were closed; a file that cannot be created or opened later does not matter. -/
theorem C181_partial (evs : List Ev) (h : ∀ e ∈ evs, Closing e) (a b : Bool) (m : Member) : delete declared (run evs) a b ≠ .ub m := by
  rw [Ne, C181_exactly]
  rintro ⟨_, hw, ho⟩
  have := shut_run evs h init (by unfold Shut; decide) hw
  rcases ho with ho | ho
  · exact this.1 ho
  · exact this.2 ho

/-- And if the last acquisition is a good one, whatever happened before. -/
theorem C181_last (evs : List Ev) (named : Bool) (a b : Bool) (m : Member) (hn : (run evs).writing = false) :
    delete declared (run (evs ++ [.start named .good])) a b ≠ .ub m := by
  rw [Ne, C181_exactly]
  rintro ⟨_, hw, ho⟩
  unfold run at hn hw ho
  rw [List.foldl_append] at hw ho
  generalize evs.foldl step init = s at *
  obtain ⟨w, p, c⟩ := s
  cases w
  · cases named
    · rcases ho with ho | ho <;> cases ho
    · cases hw
  · cases hn

/-- With the limits declared before the acquisitions it would be true. -/
theorem C181_order (l1 l2 l3 : List Member) (hd : (l1 ++ .limits :: (l2 ++ .current :: l3)).Nodup) (evs : List Ev) (a b : Bool) (m : Member) :
    delete (l1 ++ .limits :: (l2 ++ .current :: l3)) (run evs) a b ≠ .ub m := by
  have hnone : ∀ (s : St) (l : List Member), (∀ x ∈ l, x ≠ Member.current) → destroy s l = .fine := by
    intro s l
    induction l with
    | nil => exact fun _ => rfl
    | cons x l ih =>
      intro h
      have hx : uses s x = [] := by
        cases x <;> first | rfl | exact absurd rfl (h _ (by simp))
      simp [destroy, ih (fun y hy => h y (by simp [hy])), hx]
  have hall : ∀ (s : St), destroy s (l1 ++ .limits :: (l2 ++ .current :: l3)) = .fine := by
    intro s
    have hp : ∀ (l k : List Member), (∀ x ∈ l, x ≠ Member.current) → destroy s k = .fine → destroy s (l ++ k) = .fine := by
      intro l k hl hk
      induction l with
      | nil => exact hk
      | cons x l ih =>
        have hx : uses s x = [] := by
          cases x <;> first | rfl | exact absurd rfl (hl _ (by simp))
        simp [destroy, ih (fun y hy => hl y (by simp [hy])), hx]
    simp only [List.nodup_append, List.nodup_cons, List.mem_append, List.mem_cons] at hd
    obtain ⟨_, ⟨hlim, h2, ⟨h3, _⟩, h23⟩, h1⟩ := hd
    refine hp l1 _ (fun x hx e => h1 x hx .current (Or.inr (Or.inr (Or.inl rfl))) e) ?_
    rw [show (Member.limits :: (l2 ++ .current :: l3)) = ([.limits] ++ l2) ++ .current :: l3 from by simp]
    refine hp _ _ (fun x hx => ?_) ?_
    · rcases List.mem_append.1 hx with hx | hx
      · rw [List.mem_singleton.1 hx]; decide
      · exact fun e => h23 x hx .current (Or.inl rfl) e
    · have hf := hnone s l3 (fun x hx e => h3 (e ▸ hx))
      have hl3 : Member.limits ∉ l3 := fun h => hlim (Or.inr (Or.inr h))
      simp only [destroy, hf]
      rw [if_pos]
      unfold uses
      split <;> simp [hl3]
  unfold delete
  cases hs : stop (run evs) a b with
  | mk s o =>
    cases o
    · simp [hall]
    · simp

/-- The timeout thread, started while the members are being initialised, uses only those declared before it. -/
theorem C181_thread : ∀ m ∈ usedByThread, m ∈ declared.takeWhile (· ≠ .thread) := by decide

/-- Of the members declared before it, the thread uses all but the data of the acquisitions and of the configuration. -/
theorem C181_rest : (declared.takeWhile (· ≠ .thread)).filter (fun m => decide (m ∉ usedByThread)) =
    [.geometry, .current, .next, .defs, .blocks, .settings] := by decide

/-- Creating a file: the current one becomes the previous one, also if there is no new file. -/
theorem create_files (s : St) (works : Bool) (m : Made) (h : (s.prev.close works).2 = .ok) :
    (create s works m).1.prev = s.cur ∧ ((create s works m).1.cur = .opened ↔ m ≠ .noFile) ∧ ((create s works m).2 = .ok ↔ m = .good) ∧
      (create s works m).1.writing = s.writing := by
  obtain ⟨w, p, c⟩ := s
  revert h
  cases p <;> cases works <;> cases m <;> cases c <;> cases w <;> decide

/-- The writer does not start again while it is writing. -/
theorem start_again (s : St) (named : Bool) (m : Made) (h : s.writing = true) : step s (.start named m) = s := by
  show (start s named m).1 = s
  unfold start
  rw [if_pos h]

/-- It writes only if there is a file object. -/
theorem writing_file (evs : List Ev) : (run evs).writing = true → (run evs).cur ≠ .none := by
  have h : ∀ (evs : List Ev) (s : St), (s.writing = true → s.cur ≠ .none) → (evs.foldl step s).writing = true → (evs.foldl step s).cur ≠ .none := by
    intro evs
    induction evs with
    | nil => exact fun s h => h
    | cons e evs ih =>
      intro s hs
      refine ih _ ?_
      obtain ⟨w, p, c⟩ := s
      cases e with
      | start n m => revert hs; cases w <;> cases p <;> cases c <;> cases n <;> cases m <;> decide
      | nextFile n m => revert hs; cases w <;> cases p <;> cases c <;> cases n <;> cases m <;> decide
      | stop n m => revert hs; cases w <;> cases p <;> cases c <;> cases n <;> cases m <;> decide
  exact h evs init (by decide)

/-- If the previous file cannot be closed, the current one is not closed either, though it could be. -/
theorem C181_both : run [.start true .good, .nextFile true .good, .stop false true] = ⟨false, .opened, .opened⟩ ∧
    run [.start true .good, .nextFile true .good, .stop true true] = ⟨false, .closed, .closed⟩ := by decide

/-- Non-vacuity: a history with several files and acquisitions. -/
example : (∀ e ∈ [Ev.start true .good, .nextFile true .good, .nextFile true .noDataset, .stop true true, .start true .noFile, .start true .good], Closing e) ∧
    delete declared (run [.start true .good, .nextFile true .good, .nextFile true .noDataset, .stop true true, .start true .noFile, .start true .good]) true true = .fine := by
  refine ⟨?_, by decide⟩
  intro e he
  simp only [List.mem_cons, List.not_mem_nil, or_false] at he
  rcases he with rfl | rfl | rfl | rfl | rfl | rfl <;> simp [Closing]
example : declared.Nodup ∧ delete [.limits, .current] (run [.start true .noDataset]) true true = .fine := by decide

end Verif.WriterLife
