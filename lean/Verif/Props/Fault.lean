import Verif.Model.Fault

/-
C196: A program with a fault says which one and ends.
-/
namespace Verif.Fault

/-- The full statement: the signal is written, and is the status of the program. -/
def C196_statement : Prop := ∀ (l r : List Static) (n : Nat) (others : List React) (held : List Nat) (s : Sig), s ∈ handled →
  ∃ text, fault ⟨statics l r, n, others, held⟩ s = (some (num s, some text), .exited (num s))

/-- Proved part: the line is always written, with a name of its own. -/
theorem C196_line (w : World) (s : Sig) (h : s ∈ handled) : ∃ text, (fault w s).1 = some (num s, some text) ∧
    ∀ t ∈ handled, t ≠ s → name t ≠ some text ∧ num t ≠ num s := by
  unfold fault
  rw [if_pos h]
  simp only [handled, List.mem_cons, List.not_mem_nil, or_false] at h
  rcases h with rfl | rfl | rfl | rfl | rfl | rfl
  all_goals exact ⟨_, rfl, by decide⟩

/-- The lines of the six signals, with the numbers of signal(7). -/
theorem C196_lines (w : World) : handled.map (fun s => (fault w s).1) =
    [some (6, some "SIGABRT"), some (11, some "SIGSEGV"), some (7, some "SIGBUS"), some (4, some "SIGILL"), some (8, some "SIGFPE"),
     some (13, some "SIGPIPE")] := rfl

/-- An object that does no harm in `exit`. -/
def Harmless (held : List Nat) : Static → Prop
  | .locks k => k ∉ held
  | .faults _ => False
  | _ => True

theorem leave_exited (w : World) (s : Sig) (l : List Static) : ∀ n,
    leave w s l n = .exited (num s) ↔ (∀ x ∈ l, Harmless w.held x) ∧
      (n = 0 ∨ ∀ a b, l = a ++ .context :: b → .controller ∈ a) := by
  induction l with
  | nil =>
    intro n
    refine ⟨fun _ => ⟨fun x hx => (by cases hx), Or.inr fun a b h => ?_⟩, fun _ => rfl⟩
    cases a <;> cases h
  | cons x l ih =>
    intro n
    cases x with
    | controller =>
      rw [leave, ih 0]
      refine ⟨fun h => ⟨fun x hx => ?_, Or.inr fun a b e => ?_⟩, fun h => ⟨fun x hx => h.1 x (List.mem_cons_of_mem _ hx), Or.inl rfl⟩⟩
      · rcases List.mem_cons.1 hx with rfl | hx
        · trivial
        · exact h.1 x hx
      · cases a with
        | nil => cases e
        | cons y a => cases e; exact List.mem_cons_self ..
    | context =>
      rw [leave]
      by_cases hn : n = 0
      · rw [if_pos hn, ih n]
        refine ⟨fun h => ⟨fun x hx => ?_, Or.inl hn⟩, fun h => ⟨fun x hx => h.1 x (List.mem_cons_of_mem _ hx), Or.inl hn⟩⟩
        rcases List.mem_cons.1 hx with rfl | hx
        · trivial
        · exact h.1 x hx
      · rw [if_neg hn]
        refine ⟨fun h => ?_, fun h => ?_⟩
        · unfold waits at h; split at h <;> cases h
        · rcases h.2 with h0 | h0
          · exact absurd h0 hn
          · exact absurd (h0 [] l rfl) List.not_mem_nil
    | locks k =>
      rw [leave]
      by_cases hk : k ∈ w.held
      · rw [if_pos hk]
        refine ⟨fun h => (by cases h), fun h => ?_⟩
        exact absurd hk (h.1 (.locks k) (List.mem_cons_self ..))
      · rw [if_neg hk, ih n]
        refine ⟨fun h => ⟨fun x hx => ?_, ?_⟩, fun h => ⟨fun x hx => h.1 x (List.mem_cons_of_mem _ hx), ?_⟩⟩
        · rcases List.mem_cons.1 hx with rfl | hx
          · exact hk
          · exact h.1 x hx
        · rcases h.2 with h0 | h0
          · exact Or.inl h0
          · refine Or.inr fun a b e => ?_
            cases a with
            | nil => cases e
            | cons y a => cases e; exact List.mem_cons_of_mem _ (h0 a b rfl)
        · rcases h.2 with h0 | h0
          · exact Or.inl h0
          · refine Or.inr fun a b e => ?_
            have := h0 (.locks k :: a) b (by rw [e]; rfl)
            rcases List.mem_cons.1 this with h1 | h1
            · cases h1
            · exact h1
    | faults t =>
      rw [leave]
      refine ⟨fun h => ?_, fun h => (h.1 (.faults t) (List.mem_cons_self ..)).elim⟩
      unfold again at h
      split at h
      · cases h
      · split at h <;> cases h

/-- A program ends with the number of the signal exactly if none of its channels is open, and the destructors that `exit` calls
take no lock that is held and do not fault. -/
theorem C196_exactly (l r : List Static) (n : Nat) (others : List React) (held : List Nat) (s : Sig) (h : s ∈ handled)
    (hr : .controller ∉ r) : (fault ⟨statics l r, n, others, held⟩ s).2 = .exited (num s) ↔
      n = 0 ∧ ∀ x ∈ l ++ r, Harmless held x := by
  unfold fault
  rw [if_pos h]
  show leave _ s (statics l r).reverse n = _ ↔ _
  rw [leave_exited]
  have e : (statics l r).reverse = r.reverse ++ .context :: (.controller :: l.reverse) := by
    simp [statics]
  refine ⟨fun hh => ⟨?_, fun x hx => hh.1 x ?_⟩, fun hh => ⟨fun x hx => ?_, Or.inl hh.1⟩⟩
  · rcases hh.2 with h0 | h0
    · exact h0
    · exact absurd (List.mem_reverse.1 (h0 _ _ e)) hr
  · rw [List.mem_reverse, statics, List.mem_append, List.mem_cons, List.mem_cons]
    rcases List.mem_append.1 hx with h1 | h1
    · exact Or.inl h1
    · exact Or.inr (Or.inr (Or.inr h1))
  · rw [List.mem_reverse, statics, List.mem_append, List.mem_cons, List.mem_cons] at hx
    rcases hx with h1 | rfl | rfl | h1
    · exact hh.2 x (List.mem_append.2 (Or.inl h1))
    · trivial
    · trivial
    · exact hh.2 x (List.mem_append.2 (Or.inr h1))

/-- Proved part: before there is a controller, and with harmless destructors. -/
theorem C196_partial (l r : List Static) (others : List React) (held : List Nat) (s : Sig) (h : s ∈ handled)
    (hl : ∀ x ∈ l ++ r, Harmless held x) (hr : .controller ∉ r) :
    ∃ text, fault ⟨statics l r, 0, others, held⟩ s = (some (num s, some text), .exited (num s)) := by
  obtain ⟨text, ht, _⟩ := C196_line ⟨statics l r, 0, others, held⟩ s h
  exact ⟨text, Prod.ext ht ((C196_exactly l r 0 others held s h hr).2 ⟨rfl, hl⟩)⟩

/-- While the controller exists its channels are open, and a fault never ends the program properly: it waits for ever if no other
thread is in a call of ZeroMQ, and otherwise `exit` is called a second time. -/
theorem C196_running (l : List Static) (n : Nat) (others : List React) (held : List Nat) (s : Sig) (h : s ∈ handled) (hn : 0 < n) :
    (fault ⟨statics l [], n, others, held⟩ s).2 = if ∀ t ∈ others, t = .nothing then .hung else .twice := by
  unfold fault
  rw [if_pos h]
  show leave _ s (statics l []).reverse n = _
  have e : (statics l []).reverse = .context :: (.controller :: l.reverse) := by simp [statics]
  rw [e, leave, if_neg (by omega)]
  unfold waits
  by_cases ho : ∀ t ∈ others, t = .nothing
  · rw [if_pos ho, if_pos (by rw [List.all_eq_true]; intro t ht; rw [ho t ht]; rfl)]
  · rw [if_neg ho, if_neg]
    intro ha
    rw [List.all_eq_true] at ha
    exact ho fun t ht => eq_of_beq (ha t ht)

/-- A fault in the only thread of the receiver that is in a call of ZeroMQ. -/
theorem C196_violated : ¬ C196_statement := by
  intro h
  obtain ⟨text, ht⟩ := h [] [] 4 [] [] .segv (by decide)
  have := C196_running [] 4 [] [] .segv (by decide) (by decide)
  rw [ht, if_pos (fun t ht => (by cases ht))] at this
  cases this

/-- If the controller had been made after the context, the channels would be closed in time: it is the order. -/
theorem C196_order (n : Nat) (others : List React) (s : Sig) (h : s ∈ handled) :
    (fault ⟨[.context, .controller], n, others, []⟩ s).2 = .exited (num s) := by
  unfold fault
  rw [if_pos h]
  rfl

/-- An exception that nobody catches is such a fault too, and has no status of its own. -/
theorem C196_terminate (w : World) : ended w .terminate = fault w .abrt := rfl

/-- A destructor with the same fault kills the program, one with another fault calls `exit` a second time. -/
theorem C196_again (s t : Sig) (l : List Static) (others : List React) (hs : s ∈ handled) (ht : t ∈ handled) :
    (fault ⟨l ++ [.faults t], 0, others, []⟩ s).2 = if t = s then .killed (num s) else .twice := by
  unfold fault
  rw [if_pos hs]
  show leave _ s (l ++ [Static.faults t]).reverse 0 = _
  rw [List.reverse_append]
  show again s t = _
  unfold again
  by_cases e : t = s
  · subst e; rw [if_pos rfl, if_pos rfl]
  · rw [if_neg e, if_neg e, if_pos ht]

/-- A receiver that has four channels: a fault in the main thread, without and with the thread that receives. -/
example : fault ⟨statics [] [], 4, [], []⟩ .segv = (some (11, some "SIGSEGV"), .hung) ∧
    fault ⟨statics [] [], 5, [.dies], []⟩ .segv = (some (11, some "SIGSEGV"), .twice) ∧
    fault ⟨statics [.locks 1] [], 0, [], []⟩ .fpe = (some (8, some "SIGFPE"), .exited 8) ∧
    fault ⟨statics [.locks 1] [], 0, [], [1]⟩ .abrt = (some (6, some "SIGABRT"), .hung) ∧
    fault {} (.other 15) = (none, .killed 15) := by decide

/-- An exception in the constructor of the processor's controller, after its channels (an exception without
a handler does not unwind the stack with gcc): the program does not end. -/
example : (Programs.processorRun ⟨.throws .std, .applied, .none, .ok⟩).exit = .terminate ∧
    ended ⟨statics [] [], 3, [], []⟩ (Programs.processorRun ⟨.throws .std, .applied, .none, .ok⟩).exit = (some (6, some "SIGABRT"), .hung) := by decide

end Verif.Fault
