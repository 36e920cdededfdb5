import Verif.Model.Signals
import Verif.Model.Reactor
/-
C142: a signal ends the receiver.
-/
namespace Verif.Signals

/-- No event of the list is a signal. -/
def Quiet (l : List Ev) : Prop := ∀ e ∈ l, ∀ t, e ≠ .signal t

/-- The steps of the main thread, and the ends of its waits, in a list. -/
def steps (l : List Ev) : Nat :=
  (l.filter fun e => match e with
    | .main _ => true
    | .wake => true
    | .timeout => true
    | _ => false).length

/-- C142 in full: whenever a signal comes and whichever thread handles it, the receiver does not crash and does not
wait for input any more. -/
def C142_statement : Prop :=
  ∀ (before after : List Ev) (t : Thread) (s s' : St), run {} before = some s → run s (.signal t :: after) = some s' →
    Quiet after → s'.main ≠ .crash ∧ s'.waited = s.waited

/-! The ways in which it fails. -/

/-- A signal before the controller is there. -/
theorem C142_violated : ¬ C142_statement := by
  intro h
  have := h [] [] .main {} { main := .crash } rfl (by decide) (by intro e he; cases he)
  exact this.1 rfl

/-- A signal after the controller has been destroyed, while a first one is being obeyed. -/
theorem C142_twice_violated :
    run {} [.main 0, .signal .main, .main 0, .main 0, .main 0, .main 0, .signal .main] =
      some { main := .crash, flag := true } := by decide

/-- A signal between the test of the flag and the wait: the receiver waits for an hour, or for a message. -/
theorem C142_lost_violated :
    run {} [.main 0, .main 0, .main 0, .signal .main, .main hour, .pass hour] =
      some { main := .wait 0, flag := true, waited := hour } := by decide

/-- A signal handled by the RX thread: that thread ends, and the receiver waits on without it. -/
theorem C142_thread_violated :
    run {} [.main 0, .start, .rx, .main 0, .main 0, .main hour, .signal .rx, .pass hour] =
      some { main := .wait 0, rx := .ended, run := true, flag := true, waited := hour } := by decide

/-! What holds. -/

/-- A crash is the effect of a signal at a time without a controller. -/
theorem C142_crash (s s' : St) (e : Ev) (h : step s e = some s') (hc : s'.main = .crash) (hn : s.main ≠ .crash) :
    (∃ t, e = .signal t) ∧ (s.main = .boot ∨ s.main = .gone) := by
  obtain ⟨m, r, q, f, w⟩ := s
  cases e with
  | main t =>
    cases m <;> simp only [step, mainStep, reduceCtorEq, Option.some.injEq] at h
    all_goals first
      | (subst h; cases hc)
      | (split at h <;> first | (injection h with h; subst h; cases hc) | cases h)
  | wake => cases m <;> simp only [step, reduceCtorEq, Option.some.injEq] at h; subst h; cases hc
  | pass n =>
    cases m <;> simp only [step, Option.some.injEq] at h
    all_goals first
      | (subst h; first | exact absurd rfl hn | cases hc)
      | (split at h <;> first | (injection h with h; subst h; cases hc) | cases h)
  | timeout => simp only [step] at h; split at h <;> first | (injection h with h; subst h; cases hc) | cases h
  | start =>
    simp only [step] at h
    split at h
    · injection h with h; subst h; exact absurd hc hn
    · cases h
  | rx =>
    cases r <;> simp only [step, rxStep, reduceCtorEq, Option.some.injEq] at h
    all_goals (subst h; exact absurd hc hn)
  | signal t =>
    refine ⟨⟨t, rfl⟩, ?_⟩
    simp only [step] at h
    split at h
    · cases h
    · injection h with h; subst h
      cases m <;> cases t <;> simp_all [signal]

/-- Places after which the main thread does not wait any more once the flag is set, and how many steps remain. -/
def Main.rank : Main → Nat
  | .enter => 8
  | .wait _ => 7
  | .setup => 6
  | .handle => 6
  | .test => 5
  | .join => 4
  | .close => 3
  | .gone => 2
  | .ended => 1
  | .boot => 9
  | .crash => 0

/-- The wait that is still possible. -/
def Main.rest : Main → Nat
  | .enter => hour
  | .wait left => left
  | _ => 0

/-- With the flag set every step of the main thread leads nearer to the end. -/
theorem flagged_step (s s' : St) (e : Ev) (h : step s e = some s') (hf : s.flag = true) (hb : s.main ≠ .boot)
    (hq : ∀ t, e ≠ .signal t) : s'.flag = true ∧ s'.main ≠ .boot ∧
      s'.main.rank + steps [e] ≤ s.main.rank ∧ s'.waited + s'.main.rest ≤ s.waited + s.main.rest := by
  obtain ⟨m, r, q, f, w⟩ := s
  simp only at hf; subst hf
  cases e with
  | main t =>
    cases m <;> simp only [step, mainStep, reduceCtorEq, Option.some.injEq, if_true] at h
    · exact absurd rfl hb
    case enter =>
      split at h
      · injection h with h; subst h
        exact ⟨rfl, by simp, by simp [steps, Main.rank], by simp only [Main.rest]; omega⟩
      · cases h
    case join =>
      split at h
      · injection h with h; subst h
        exact ⟨rfl, by simp, by simp [steps, Main.rank], by simp [Main.rest]⟩
      · cases h
    all_goals (subst h; exact ⟨rfl, by simp, by simp [steps, Main.rank], by simp [Main.rest]⟩)
  | wake =>
    cases m <;> simp only [step, reduceCtorEq, Option.some.injEq] at h
    subst h
    exact ⟨rfl, by simp, by simp [steps, Main.rank], by simp [Main.rest]⟩
  | pass n =>
    cases m <;> simp only [step, Option.some.injEq] at h
    case wait left =>
      split at h
      · injection h with h; subst h
        exact ⟨rfl, by simp, by simp [steps, Main.rank], by simp only [Main.rest]; omega⟩
      · cases h
    all_goals (subst h; exact ⟨rfl, hb, by simp [steps], Nat.le_refl _⟩)
  | timeout =>
    simp only [step] at h
    split at h
    · next hm =>
      injection h with h; subst h; subst hm
      exact ⟨rfl, by simp, by simp [steps, Main.rank], by simp [Main.rest]⟩
    · cases h
  | start =>
    simp only [step] at h
    split at h
    · injection h with h; subst h; exact ⟨rfl, hb, by simp [steps], Nat.le_refl _⟩
    · cases h
  | rx =>
    cases r <;> simp only [step, rxStep, reduceCtorEq, Option.some.injEq] at h
    all_goals (subst h; exact ⟨rfl, hb, by simp [steps], Nat.le_refl _⟩)
  | signal t => exact absurd rfl (hq t)

theorem steps_cons (e : Ev) (l : List Ev) : steps (e :: l) = steps [e] + steps l := by
  simp only [steps, ← List.length_append, ← List.filter_append]
  rfl

theorem flagged_run (l : List Ev) : ∀ s s' : St, run s l = some s' → s.flag = true → s.main ≠ .boot → Quiet l →
    s'.main.rank + steps l ≤ s.main.rank ∧ s'.waited + s'.main.rest ≤ s.waited + s.main.rest := by
  induction l with
  | nil =>
    intro s s' h _ _ _
    injection h with h; subst h
    exact ⟨Nat.le_refl _, Nat.le_refl _⟩
  | cons e l ih =>
    intro s s' h hf hb hq
    cases hs : step s e with
    | none => simp [run, hs] at h
    | some s1 =>
      simp only [run, hs, Option.bind_some] at h
      obtain ⟨f1, b1, r1, w1⟩ := flagged_step s s1 e hs hf hb (hq e List.mem_cons_self)
      obtain ⟨r2, w2⟩ := ih s1 s' h f1 b1 (fun x hx => hq x (List.mem_cons_of_mem _ hx))
      rw [steps_cons]
      omega

/-- The handler at a time when there is a controller. -/
theorem signal_flag (s : St) (t : Thread) (h : s.main ≠ .boot ∧ s.main ≠ .gone ∧ s.main ≠ .ended ∧ s.main ≠ .crash) :
    (signal s t).flag = true ∧ (signal s t).main ≠ .boot ∧ (signal s t).waited = s.waited ∧
      (signal s t).main ≠ .crash ∧
      ((signal s t).main = s.main ∨ t = .main ∧ (signal s t).main = .test ∧ ∃ n, s.main = .wait n) := by
  obtain ⟨m, r, q, f, w⟩ := s
  cases m <;> cases t <;> simp_all [signal]

/-- As long as no further signal comes there is no crash. -/
theorem quiet_crash (l : List Ev) : ∀ s s' : St, run s l = some s' → s.main ≠ .crash → Quiet l → s'.main ≠ .crash := by
  induction l with
  | nil => intro s s' h hc _; injection h with h; subst h; exact hc
  | cons e l ih =>
    intro s s' h hc hq
    cases hs : step s e with
    | none => simp [run, hs] at h
    | some s1 =>
      simp only [run, hs, Option.bind_some] at h
      refine ih s1 s' h ?_ (fun x hx => hq x (List.mem_cons_of_mem _ hx))
      intro h1
      obtain ⟨⟨t, ht⟩, _⟩ := C142_crash s s1 e hs h1 hc
      exact hq e List.mem_cons_self t ht

theorem signal_run (s s' : St) (t : Thread) (l : List Ev) (h : run s (.signal t :: l) = some s') :
    run (signal s t) l = some s' := by
  simp only [run, step] at h
  split at h
  · cases h
  · exact h

/-- Once there is a controller, a signal handled by the main thread ends the receiver without another wait, unless it
comes between the test of the flag and the wait: at most five more steps of the main thread remain (the first being the
end of setting up or of the callbacks). -/
theorem C142_partial (s s' : St) (l : List Ev) (h : run s (.signal .main :: l) = some s') (hq : Quiet l)
    (h1 : s.main ≠ .boot ∧ s.main ≠ .gone ∧ s.main ≠ .ended ∧ s.main ≠ .crash) (h2 : s.main ≠ .enter) :
    s'.main ≠ .crash ∧ s'.waited = s.waited ∧ (∀ n, s'.main ≠ .wait n) ∧ s'.main ≠ .enter ∧ s'.main.rank + steps l ≤ 6 := by
  have hr := signal_run s s' .main l h
  obtain ⟨f, b, w, c, m⟩ := signal_flag s .main h1
  obtain ⟨r2, w2⟩ := flagged_run l _ s' hr f b hq
  have hm : (signal s .main).main.rank ≤ 6 ∧ (signal s .main).main.rest = 0 := by
    obtain ⟨m0, r, q, f0, w0⟩ := s
    cases m0 <;> simp_all [signal, Main.rank, Main.rest]
  have hw : s'.waited ≥ s.waited := by
    have key : ∀ (l : List Ev) (s s' : St), run s l = some s' → s.waited ≤ s'.waited := by
      intro l
      induction l with
      | nil => intro s s' h; injection h with h; subst h; exact Nat.le_refl _
      | cons e l ih =>
        intro s s' h
        cases hs : step s e with
        | none => simp [run, hs] at h
        | some s1 =>
          simp only [run, hs, Option.bind_some] at h
          refine Nat.le_trans ?_ (ih s1 s' h)
          clear h ih
          obtain ⟨m, r, q, f, w⟩ := s
          cases e with
          | main t =>
            cases m <;> simp only [step, mainStep, reduceCtorEq, Option.some.injEq] at hs
            all_goals first
              | (subst hs; exact Nat.le_refl _)
              | (split at hs <;> first | (injection hs with hs; subst hs; exact Nat.le_refl _) | cases hs)
          | wake => cases m <;> simp only [step, reduceCtorEq, Option.some.injEq] at hs; subst hs; exact Nat.le_refl _
          | pass n =>
            cases m <;> simp only [step, Option.some.injEq] at hs
            all_goals first
              | (subst hs; exact Nat.le_refl _)
              | (split at hs <;> first | (injection hs with hs; subst hs; exact Nat.le_add_right _ _) | cases hs)
          | timeout =>
            simp only [step] at hs
            split at hs <;> first | (injection hs with hs; subst hs; exact Nat.le_refl _) | cases hs
          | start =>
            simp only [step] at hs
            split at hs <;> first | (injection hs with hs; subst hs; exact Nat.le_refl _) | cases hs
          | rx =>
            cases r <;> simp only [step, rxStep, reduceCtorEq, Option.some.injEq] at hs
            all_goals (subst hs; exact Nat.le_refl _)
          | signal t =>
            simp only [step] at hs
            split at hs
            · cases hs
            · injection hs with hs; subst hs
              cases m <;> cases t <;> exact Nat.le_refl _
    have := key l _ s' hr
    omega
  refine ⟨quiet_crash l _ s' hr c hq, by omega, ?_, ?_, by omega⟩
  · intro n hn
    have hl := Nat.le_trans r2 hm.1
    rw [hn] at hl; simp only [Main.rank] at hl; omega
  · intro hn
    have hl := Nat.le_trans r2 hm.1
    rw [hn] at hl; simp only [Main.rank] at hl; omega

/-- Nobody waits for anybody else then: until it has ended the main thread can go on, or it waits for the RX thread, which
can go on and was told to end. -/
theorem C142_goes_on (s : St) (hf : s.flag = true) (h : s.main ≠ .ended ∧ s.main ≠ .crash) (hw : ∀ n, s.main ≠ .wait n) :
    (∃ t, t ≤ hour ∧ step s (.main t) ≠ none) ∨ (s.main = .join ∧ step s .rx ≠ none) := by
  obtain ⟨m, r, q, f, w⟩ := s
  simp only at hf h hw; subst hf
  cases m with
  | wait n => exact absurd rfl (hw n)
  | ended => exact absurd rfl h.1
  | crash => exact absurd rfl h.2
  | join =>
    cases r with
    | none => exact Or.inl ⟨0, by decide, by simp [step, mainStep]⟩
    | ended => exact Or.inl ⟨0, by decide, by simp [step, mainStep]⟩
    | busy => exact Or.inr ⟨rfl, by simp [step, rxStep]⟩
    | wait => exact Or.inr ⟨rfl, by simp [step, rxStep]⟩
  | enter => exact Or.inl ⟨0, by decide, by simp [step, mainStep, hour]⟩
  | boot => exact Or.inl ⟨0, by decide, by simp [step, mainStep]⟩
  | setup => exact Or.inl ⟨0, by decide, by simp [step, mainStep]⟩
  | test => exact Or.inl ⟨0, by decide, by simp [step, mainStep]⟩
  | handle => exact Or.inl ⟨0, by decide, by simp [step, mainStep]⟩
  | close => exact Or.inl ⟨0, by decide, by simp [step, mainStep]⟩
  | gone => exact Or.inl ⟨0, by decide, by simp [step, mainStep]⟩

/-- Whichever thread handles the signal and whenever it comes, once there is a controller: the receiver waits for input
at most once more, at most an hour. -/
theorem C142_hour (before l : List Ev) (s s' : St) (t : Thread) (hb : run {} before = some s)
    (h : run s (.signal t :: l) = some s') (hq : Quiet l)
    (h1 : s.main ≠ .boot ∧ s.main ≠ .gone ∧ s.main ≠ .ended ∧ s.main ≠ .crash) :
    s'.main ≠ .crash ∧ s'.waited ≤ s.waited + hour ∧ steps l ≤ 8 := by
  have hlim : ∀ (l : List Ev) (s s' : St), run s l = some s' → s.main.rest ≤ hour → s'.main.rest ≤ hour := by
    intro l
    induction l with
    | nil => intro s s' h hs; injection h with h; subst h; exact hs
    | cons e l ih =>
      intro s s' h hs
      cases hs1 : step s e with
      | none => simp [run, hs1] at h
      | some s1 =>
        simp only [run, hs1, Option.bind_some] at h
        refine ih s1 s' h ?_
        clear h ih
        obtain ⟨m, r, q, f, w⟩ := s
        cases e with
        | main t =>
          cases m <;> simp only [step, mainStep, reduceCtorEq, Option.some.injEq] at hs1
          case enter =>
            split at hs1
            · injection hs1 with hs1; subst hs1; assumption
            · cases hs1
          case test =>
            split at hs1
            · injection hs1 with hs1; subst hs1; exact Nat.zero_le _
            · injection hs1 with hs1; subst hs1; exact Nat.le_refl _
          case join =>
            split at hs1
            · injection hs1 with hs1; subst hs1; exact Nat.zero_le _
            · cases hs1
          all_goals (subst hs1; exact Nat.zero_le _)
        | wake => cases m <;> simp only [step, reduceCtorEq, Option.some.injEq] at hs1; subst hs1; exact Nat.zero_le _
        | pass n =>
          cases m <;> simp only [step, Option.some.injEq] at hs1
          case wait left =>
            split at hs1
            · injection hs1 with hs1; subst hs1; exact Nat.le_trans (Nat.sub_le _ _) hs
            · cases hs1
          all_goals (subst hs1; exact hs)
        | timeout =>
          simp only [step] at hs1
          split at hs1
          · injection hs1 with hs1; subst hs1; exact Nat.zero_le _
          · cases hs1
        | start =>
          simp only [step] at hs1
          split at hs1
          · injection hs1 with hs1; subst hs1; exact hs
          · cases hs1
        | rx =>
          cases r <;> simp only [step, rxStep, reduceCtorEq, Option.some.injEq] at hs1
          all_goals (subst hs1; exact hs)
        | signal t =>
          simp only [step] at hs1
          split at hs1
          · cases hs1
          · injection hs1 with hs1; subst hs1
            cases m <;> cases t <;> first | exact hs | exact Nat.zero_le _
  have hr := signal_run s s' t l h
  obtain ⟨f, b, w, c, m⟩ := signal_flag s t h1
  obtain ⟨r2, w2⟩ := flagged_run l _ s' hr f b hq
  have h0 := hlim before {} s hb (Nat.zero_le _)
  have h3 : (signal s t).main.rest ≤ hour := by
    rcases m with m | ⟨_, m, _⟩
    · rw [m]; exact h0
    · rw [m]; exact Nat.zero_le _
  have h4 : (signal s t).main.rank ≤ 8 := by
    have hx := b
    cases hm : (signal s t).main <;> simp_all [Main.rank]
  exact ⟨quiet_crash l _ s' hr c hq, by omega, by omega⟩

/-- The hour is the one of the reactor: its timeout is never longer. -/
theorem C142_timeout (l : List Reactor.Timer) (now1 now2 t : Int) (h : Reactor.timeout l now1 now2 = some t) (hn : now1 ≤ now2) :
    t ≤ hour := by
  have key : ∀ (l : List Reactor.Timer) (m : Int), Reactor.earliest l m ≤ m := by
    intro l
    induction l with
    | nil => intro m; exact Int.le_refl _
    | cons x l ih =>
      intro m
      have := ih (if m > x.due then x.due else m)
      simp only [Reactor.earliest, List.foldl_cons] at this ⊢
      split at this <;> split <;> omega
  have := key l (now1 + 3600000)
  simp only [Reactor.timeout] at h
  split at h
  · cases h
  · injection h with h
    simp only [hour]
    split at h <;> omega

/-- A receiver with an RX thread, interrupted while it waits: it ends, and so does the RX thread. -/
example : run {} [.main 0, .start, .rx, .main 0, .main 0, .main 500, .pass 200, .signal .main, .main 0, .rx, .rx,
    .main 0, .main 0, .main 0] = some { main := .ended, rx := .ended, flag := true, waited := 200 } := by decide

example : ∃ s', run { main := .wait 500, rx := .wait, run := true } [.signal .main, .main 0] = some s' ∧
    s'.main = .join := ⟨_, rfl, rfl⟩

example : Reactor.timeout [] 0 0 = some 3600000 := by decide

end Verif.Signals
