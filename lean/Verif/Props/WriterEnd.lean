import Verif.Model.WriterEnd
namespace Verif.WriterEnd

/-! ### Counting -/
namespace Spec

/-- How often something happens in a list. -/
def times {α} [DecidableEq α] (x : α) : List α → Nat
  | [] => 0
  | y :: l => (if y = x then 1 else 0) + times x l

/-- The steps of a schedule that are not spurious wake-ups. -/
def genuine : List Act → Nat
  | [] => 0
  | a :: l => (if a = .spurious then 0 else 1) + genuine l

/-- `s` can be reached from the end of the constructor. -/
def Reached (s : St) : Prop := ∃ b as evs, run (init b) as = some (s, evs)

end Spec
open Spec

theorem times_append {α} [DecidableEq α] (x : α) (l m : List α) : times x (l ++ m) = times x l + times x m := by
  induction l with
  | nil => simp [times]
  | cons y l ih => simp only [List.cons_append, times, ih]; omega

/-! ### The states, as a list -/

def D.all : List D := [.alive, .run, .active, .wantF, .hasF, .wantS, .hasS, .join, .last, .done]
def T.all : List T := [.start, .check, .wait, .wantS, .awake, .arm, .wantF, .loop, .timed, .wantFn, .wantFt, .expired, .ended]
def Act.all : List Act := [.request, .frame, .clear, .write true, .write false, .destroy, .d, .t, .expire, .spurious]

/-- A decidable property of all states can be checked by evaluation: there are finitely many, and they are all of them. -/
def allSt (Q : St → Bool) : Bool :=
  D.all.all fun d => T.all.all fun t => [true, false].all fun r => [true, false].all fun a => [true, false].all fun w => Q ⟨d, t, r, a, w⟩

theorem forall_st (Q : St → Bool) (h : allSt Q = true) (s : St) : Q s = true := by
  obtain ⟨d, t, r, a, w⟩ := s
  simp only [allSt, List.all_eq_true] at h
  exact h d (by cases d <;> decide) t (by cases t <;> decide) r (by cases r <;> decide) a (by cases a <;> decide) w (by cases w <;> decide)

theorem forall_act (Q : Act → Bool) (h : Act.all.all Q = true) (a : Act) : Q a = true := by
  rw [List.all_eq_true] at h
  refine h a ?_
  cases a with
  | write b => cases b <;> decide
  | _ => decide

/-- A property of all steps. -/
def allSteps (Q : St → Act → St → List Ev → Bool) : Bool :=
  allSt fun s => Act.all.all fun a => match step s a with | none => true | some r => Q s a r.1 r.2

theorem forall_steps (Q : St → Act → St → List Ev → Bool) (h : allSteps Q = true) (s : St) (a : Act) (t : St) (evs : List Ev)
    (hs : step s a = some (t, evs)) : Q s a t evs = true := by
  have h1 := forall_st _ h s
  have h2 := forall_act _ h1 a
  rw [hs] at h2
  exact h2

/-! ### Schedules -/

theorem run_cons {s : St} {a : Act} {as : List Act} {t : St} {evs : List Ev} (h : run s (a :: as) = some (t, evs)) :
    ∃ u e1 e2, step s a = some (u, e1) ∧ run u as = some (t, e2) ∧ evs = e1 ++ e2 := by
  simp only [run] at h
  cases h1 : step s a with
  | none => rw [h1] at h; cases h
  | some r =>
    rw [h1] at h
    simp only [Option.bind_some] at h
    cases h2 : run r.1 as with
    | none => rw [h2] at h; cases h
    | some q =>
      rw [h2] at h
      simp only [Option.map_some, Option.some.injEq, Prod.mk.injEq] at h
      exact ⟨r.1, r.2, q.2, rfl, by rw [h2, ← h.1], h.2.symm⟩

theorem run_inv (I : St → Bool) (hs : allSteps (fun s _ t _ => !I s || I t) = true) :
    ∀ as s t evs, I s = true → run s as = some (t, evs) → I t = true := by
  intro as
  induction as with
  | nil => intro s t evs h hr; simp only [run, Option.some.injEq, Prod.mk.injEq] at hr; rw [← hr.1]; exact h
  | cons a as ih =>
    intro s t evs h hr
    obtain ⟨u, e1, e2, h1, h2, _⟩ := run_cons hr
    have h3 := forall_steps _ hs s a u e1 h1
    rw [h] at h3
    exact ih u t e2 (by simpa using h3) h2

theorem run_append (as bs : List Act) : ∀ s t u e1 e2, run s as = some (t, e1) → run t bs = some (u, e2) →
    run s (as ++ bs) = some (u, e1 ++ e2) := by
  induction as with
  | nil =>
    intro s t u e1 e2 h1 h2
    simp only [run, Option.some.injEq, Prod.mk.injEq] at h1
    rw [← h1.1] at h2; rw [← h1.2]; simpa using h2
  | cons a as ih =>
    intro s t u e1 e2 h1 h2
    obtain ⟨v, f1, f2, h3, h4, h5⟩ := run_cons h1
    simp only [List.cons_append, run, h3, Option.bind_some, ih v t u f2 e2 h4 h2, Option.map_some, h5, List.append_assoc]

/-! ### C173: the destructor -/

/-- What is left to do, without spurious wake-ups. -/
def restT (s : St) : Nat :=
  match s.t with
  | .start => 2
  | .check => 1
  | .wait => 0
  | .wantS => 10
  | .awake => 9
  | .arm => 8
  | .wantF => 7
  | .loop => if s.active then 6 else 2
  | .timed => 5
  | .wantFn => 7
  | .wantFt => 4
  | .expired => 3
  | .ended => 0
def restD : D → Nat
  | .alive => 10 | .run => 9 | .active => 8 | .wantF => 7 | .hasF => 6 | .wantS => 5 | .hasS => 4 | .join => 3 | .last => 2 | .done => 0
def rest (s : St) : Nat := restT s + 16 * restD s.d

def begun (s : St) : Bool := s.d ≠ .alive

theorem rest_step : allSteps (fun s a t _ => !begun s || (begun t && decide (rest t + (if a = .spurious then 0 else 1) ≤ rest s + (if a = .spurious then 10 else 0)))) = true := by
  decide +kernel

theorem rest_run : ∀ as s t evs, begun s = true → run s as = some (t, evs) →
    begun t = true ∧ rest t + genuine as ≤ rest s + 10 * times Act.spurious as := by
  intro as
  induction as with
  | nil => intro s t evs h hr; simp only [run, Option.some.injEq, Prod.mk.injEq] at hr; rw [← hr.1]; exact ⟨h, by simp [genuine, times]⟩
  | cons a as ih =>
    intro s t evs h hr
    obtain ⟨u, e1, e2, h1, h2, _⟩ := run_cons hr
    have h3 := forall_steps _ rest_step s a u e1 h1
    rw [h] at h3
    simp only [Bool.not_true, Bool.false_or, Bool.and_eq_true, decide_eq_true_eq] at h3
    obtain ⟨h4, h5⟩ := ih u t e2 h3.1 h2
    refine ⟨h4, ?_⟩
    have h6 := h3.2
    simp only [genuine, times]
    by_cases hc : a = .spurious
    · simp only [hc, if_true] at h6 ⊢; omega
    · simp only [hc, if_false] at h6 ⊢; omega

/-- The lock F is not held by both, nor S; a notification is not missed. Once the flag is cleared it stays so; past the second
notification the thread does not wait to be started, and the destructor passes `join` only when it has ended. -/
def sound (s : St) : Bool :=
  !(s.d == .hasF && s.t.hasF) && !(s.d == .hasS && s.t.hasS) &&
  (s.running == (s.d == .alive || s.d == .run)) &&
  !((s.d == .join) && s.t == .wait) &&
  (!(s.d == .last || s.d == .done) || s.t == .ended) &&
  (!(s.d == .alive) || s.t != .ended)

theorem sound_step : allSteps (fun s _ t _ => !sound s || sound t) = true := by decide +kernel

theorem sound_reached {s : St} (h : Reached s) : sound s = true := by
  obtain ⟨b, as, evs, hr⟩ := h
  exact run_inv sound sound_step as (init b) s evs (by cases b <;> decide) hr

/-- Not stuck: until the destructor is done, it or the timeout thread can go on or a timed wait expires. -/
def canGo (s : St) : Bool := !(sound s && begun s && s.d != .done) || ((step s .d).isSome || (step s .t).isSome || (step s .expire).isSome)
theorem canGo_all : allSt canGo = true := by decide +kernel

/-- The destructor of the file writer always ends. In every schedule after it was called the number of steps, not counting spurious
wake-ups, is bounded; and before it is done a step is always possible. -/
theorem C173_ends (s : St) (h : Reached s) (hd : s.d ≠ .alive) :
    (∀ as t evs, run s as = some (t, evs) → genuine as ≤ 160 + 10 * times Act.spurious as) ∧
    (s.d ≠ .done → ∃ a, (a = .d ∨ a = .t ∨ a = .expire) ∧ (step s a).isSome = true) := by
  have hb : begun s = true := by simp [begun, hd]
  constructor
  · intro as t evs hr
    have h1 := (rest_run as s t evs hb hr).2
    have h2 : decide (rest s ≤ 160) = true := by
      have h3 := forall_st (fun s => !begun s || decide (rest s ≤ 160)) (by decide +kernel) s
      rw [hb] at h3; simpa using h3
    have h3 := of_decide_eq_true h2
    omega
  · intro hn
    have h1 := forall_st _ canGo_all s
    have h2 : (s.d != D.done) = true := by simp [hn]
    simp only [canGo, sound_reached h, hb, h2, Bool.and_self, Bool.not_true, Bool.false_or, Bool.or_eq_true] at h1
    rcases h1 with (h1 | h1) | h1
    · exact ⟨.d, Or.inl rfl, h1⟩
    · exact ⟨.t, Or.inr (Or.inl rfl), h1⟩
    · exact ⟨.expire, Or.inr (Or.inr rfl), h1⟩

/-- When the members of the writer are destroyed, the timeout thread has ended. -/
theorem C173_joined (s : St) (h : Reached s) (hd : s.d = .done) : s.t = .ended := by
  have h1 := sound_reached h
  revert h1 hd
  obtain ⟨d, t, r, a, w⟩ := s
  rintro rfl
  cases t <;> cases r <;> simp [sound, T.hasS, T.hasF]

/-- C173, full statement: the destructor does not have to wait for the timeout to expire. -/
def C173_statement : Prop :=
  ∀ s, Reached s → s.d ≠ .alive →
    ∃ as, (∀ a ∈ as, a = .d ∨ a = .t) ∧ ∃ t evs, run s as = some (t, evs) ∧ t.d = .done

/-- The thread has been notified and found `timeout_thread_running_` set (line 922); before it sets `timeout_active_` (line 923)
the destructor clears both and notifies (lines 111-117). -/
def late : List Act := [.t, .t, .clear, .request, .t, .t, .destroy, .d, .d, .d, .d, .t, .t, .t]

/-- The thread waits for the timeout with S, the destructor for S. -/
def waits (s : St) : Bool := s.d == .wantS && s.t == .timed
theorem waits_all : allSteps (fun s a t _ => !(waits s && (a == .d || a == .t)) || waits t) = true := by decide +kernel

theorem late_reached : ∃ s, Reached s ∧ waits s = true :=
  ⟨⟨.wantS, .timed, false, true, false⟩, ⟨true, late, [.requested], by decide +kernel⟩, by decide⟩

/-- C173 is false of the code. -/
theorem C173_violated : ¬ C173_statement := by
  intro h
  obtain ⟨s, hr, hw⟩ := late_reached
  obtain ⟨as, ha, t, evs, hrun, hd⟩ := h s hr (by intro h; simp [waits, h] at hw)
  have key : ∀ as s t evs, waits s = true → (∀ a ∈ as, a = .d ∨ a = .t) → run s as = some (t, evs) → waits t = true := by
    intro as
    induction as with
    | nil => intro s t evs h _ hr; simp only [run, Option.some.injEq, Prod.mk.injEq] at hr; rw [← hr.1]; exact h
    | cons a as ih =>
      intro s t evs h ha hr
      obtain ⟨u, e1, e2, h1, h2, _⟩ := run_cons hr
      have h3 := forall_steps _ waits_all s a u e1 h1
      have h4 : (a == Act.d || a == Act.t) = true := by rcases ha a List.mem_cons_self with h | h <;> simp [h]
      rw [h, h4] at h3
      exact ih u t e2 (by simpa using h3) (fun x hx => ha x (List.mem_cons_of_mem _ hx)) h2
  have := key as s t evs hw ha hrun
  simp [waits, hd] at this

/-- Everything is as the destructor expects: `timeout_active_` stays cleared, no notification is missed. -/
def calm (s : St) : Bool :=
  sound s && s.t != .arm &&
  ((s.d == .active) ||
   ((s.d != .alive && s.d != .run) && !s.active &&
    !((s.d == .wantS || s.d == .hasS || s.d == .join) && s.t == .timed)))

theorem calm_step : allSteps (fun s _ t _ => !calm s || calm t) = true := by decide +kernel

/-- Whoever can go on does, the destructor first. -/
def drive : Nat → St → St
  | 0, s => s
  | n + 1, s => match step s .d with
    | some r => drive n r.1
    | none => match step s .t with
      | some r => drive n r.1
      | none => s

theorem drive_run : ∀ n s, ∃ as, (∀ a ∈ as, a = .d ∨ a = .t) ∧ ∃ evs, run s as = some (drive n s, evs) := by
  intro n
  induction n with
  | zero => intro s; exact ⟨[], by simp, [], rfl⟩
  | succ n ih =>
    intro s
    rw [drive]
    cases h1 : step s .d with
    | some r =>
      obtain ⟨as, ha, evs, hr⟩ := ih r.1
      refine ⟨.d :: as, ?_, r.2 ++ evs, ?_⟩
      · intro a h; rcases List.mem_cons.mp h with h | h
        · exact Or.inl h
        · exact ha a h
      · simp only [run, h1, Option.bind_some, hr, Option.map_some]
    | none =>
      dsimp only
      cases h2 : step s .t with
      | some r =>
        obtain ⟨as, ha, evs, hr⟩ := ih r.1
        refine ⟨.t :: as, ?_, r.2 ++ evs, ?_⟩
        · intro a h; rcases List.mem_cons.mp h with h | h
          · exact Or.inr h
          · exact ha a h
        · simp only [run, h2, Option.bind_some, hr, Option.map_some]
      | none => exact ⟨[], by simp, [], rfl⟩

theorem calm_done : allSt (fun s => !calm s || (drive 30 s).d == .done) = true := by decide +kernel

/-- C173, proved part: unless the thread is between the lines 922 and 923 when the destructor clears `timeout_active_` (line 112), from
every later state, whatever has happened meanwhile, the destructor ends without waiting for the timeout. -/
theorem C173_partial (s : St) (h : Reached s) (hd : s.d = .active) (ht : s.t ≠ .arm) (as : List Act) (u : St) (evs : List Ev)
    (hr : run s as = some (u, evs)) :
    ∃ bs, (∀ a ∈ bs, a = .d ∨ a = .t) ∧ ∃ t evs, run u bs = some (t, evs) ∧ t.d = .done := by
  have hc : calm s = true := by simp [calm, sound_reached h, hd, ht]
  have hu := run_inv calm calm_step as s u evs hc hr
  have h1 := forall_st _ calm_done u
  rw [hu] at h1
  simp only [Bool.not_true, Bool.false_or, beq_iff_eq] at h1
  obtain ⟨bs, hb, e, hrun⟩ := drive_run 30 u
  exact ⟨bs, hb, drive 30 u, e, hrun, h1⟩

/-- Non-vacuity: the destructor comes while the timer runs. -/
example : run (init false) [.t, .t, .write true, .request, .t, .t, .t, .t, .t, .destroy, .d] =
    some (⟨.active, .timed, false, true, true⟩, [.requested]) := by decide +kernel
example : (drive 30 ⟨.active, .timed, false, true, true⟩).d = .done := by decide +kernel

/-! ### C174: the timer is what was asked for -/

/-- C174, full statement: the timeout never stops more acquisitions than it was asked for, and a request arms the timer. -/
def C174_statement : Prop :=
  (∀ b as s evs, run (init b) as = some (s, evs) → times Ev.stopped evs ≤ times Ev.requested evs) ∧
  (∀ s t, Reached s → step s .request = some (t, [.requested]) →
    ∃ n u evs, run t (List.replicate n .t) = some (u, evs) ∧ u.active = true)

/-- Nobody has asked for the timer; a spurious wake-up arms it, and after the timeout (0 ms, unless configured) the acquisition is
stopped. -/
theorem C174_spurious : ∃ s, run (init false) [.t, .t, .write true, .spurious, .t, .t, .t, .t, .t, .expire, .t, .t] =
    some (s, [.stopped]) ∧ s.writing = false := ⟨⟨.alive, .loop, true, false, false⟩, by decide +kernel⟩

/-- C174 is false of the code. -/
theorem C174_violated : ¬ C174_statement := by
  intro h
  obtain ⟨s, hs, _⟩ := C174_spurious
  have := h.1 _ _ _ _ hs
  simp [times] at this

/-- A request before the thread waits for the first time is lost: the timer is never armed by it, whatever happens except another
request or a spurious wake-up. -/
theorem C174_lost (as : List Act) (hn : ∀ a ∈ as, a ≠ .request ∧ a ≠ .spurious) (s t u : St) (evs : List Ev)
    (hs : s = init false) (hq : step s .request = some (t, [.requested])) (hr : run t as = some (u, evs)) : u.active = false := by
  subst hs
  have ht : t = init false := by
    have : step (init false) .request = some (init false, [.requested]) := by decide
    rw [this] at hq
    simpa using hq.symm
  subst ht
  let I : St → Bool := fun s => !s.active && (s.t == .start || s.t == .check || s.t == .wait || s.t == .ended || s.t == .wantS && !s.running ||
    s.t == .awake && !s.running) && (s.running == (s.d == .alive || s.d == .run))
  have hstep : allSteps (fun s a t _ => !(I s && a != .request && a != .spurious) || I t) = true := by decide +kernel
  have key : ∀ as s t evs, I s = true → (∀ a ∈ as, a ≠ .request ∧ a ≠ .spurious) → run s as = some (t, evs) → I t = true := by
    intro as
    induction as with
    | nil => intro s t evs h _ hr; simp only [run, Option.some.injEq, Prod.mk.injEq] at hr; rw [← hr.1]; exact h
    | cons a as ih =>
      intro s t evs h ha hr
      obtain ⟨u, e1, e2, h1, h2, _⟩ := run_cons hr
      have h3 := forall_steps _ hstep s a u e1 h1
      have h4 := ha a List.mem_cons_self
      have h5 : (I s && a != .request && a != .spurious) = true := by simp [h, h4.1, h4.2]
      rw [h5] at h3
      exact ih u t e2 (by simpa using h3) (fun x hx => ha x (List.mem_cons_of_mem _ hx)) h2
  have h1 : I u = true := key as (init false) u evs (by decide) hn hr
  revert h1
  simp only [I, Bool.and_eq_true, Bool.not_eq_true']
  exact fun h => h.1.1

/-- Non-vacuity of `C174_lost`: the acquisition then never ends. -/
example : run (init false) [.write true, .request, .t, .t, .frame] = some (⟨.alive, .wait, true, false, true⟩, [.requested]) := by decide +kernel

/-- A request that has not led to a stop yet. -/
def pending (s : St) : Nat :=
  match s.t with
  | .start | .check | .wait | .ended => 0
  | .wantS | .awake => if s.running then 1 else 0
  | .arm => 1
  | _ => if s.active then 1 else 0

theorem pending_step : allSteps (fun s a t evs => !sound s || a == .spurious ||
    decide (pending t + times Ev.stopped evs ≤ pending s + times Ev.requested evs)) = true := by decide +kernel

theorem pending_run : ∀ as s t evs, sound s = true → (∀ a ∈ as, a ≠ .spurious) → run s as = some (t, evs) →
    pending t + times Ev.stopped evs ≤ pending s + times Ev.requested evs := by
  intro as
  induction as with
  | nil => intro s t evs _ _ hr; simp only [run, Option.some.injEq, Prod.mk.injEq] at hr; rw [← hr.1, ← hr.2]; simp [times]
  | cons a as ih =>
    intro s t evs hs ha hr
    obtain ⟨u, e1, e2, h1, h2, h3⟩ := run_cons hr
    have h4 := forall_steps _ pending_step s a u e1 h1
    have h5 : (a == Act.spurious) = false := by simp [ha a List.mem_cons_self]
    rw [h5, hs] at h4
    have hu : sound u = true := by
      have := forall_steps _ sound_step s a u e1 h1
      rw [hs] at this; simpa using this
    have h6 := of_decide_eq_true (by simpa using h4 : decide (pending u + times Ev.stopped e1 ≤ pending s + times Ev.requested e1) = true)
    have h7 := ih u t e2 hu (fun x hx => ha x (List.mem_cons_of_mem _ hx)) h2
    rw [h3, times_append, times_append]
    omega

/-- C174, proved part: without spurious wake-ups the timeout stops at most as many acquisitions as it was asked for, up to every moment
of every history. -/
theorem C174_partial (b : Bool) (as : List Act) (s : St) (evs : List Ev) (hn : ∀ a ∈ as, a ≠ .spurious)
    (hr : run (init b) as = some (s, evs)) : times Ev.stopped evs ≤ times Ev.requested evs := by
  have := pending_run as (init b) s evs (by cases b <;> decide) hn hr
  have h0 : pending (init b) = 0 := rfl
  omega

/-- Non-vacuity: asked for twice, stopped once. -/
example : run (init false) [.t, .t, .write true, .request, .t, .t, .t, .t, .t, .expire, .t, .t, .t, .t, .request] =
    some (⟨.alive, .wantS, true, false, false⟩, [.requested, .stopped, .requested]) := by decide +kernel

/-- Once the thread has been running, a request does arm the timer. -/
theorem C174_arms_partial (s t : St) (h : Reached s) (hs : s.t ≠ .start) (hq : step s .request = some (t, [.requested])) :
    ∃ u evs, run t (List.replicate 3 .t) = some (u, evs) ∧ u.active = true := by
  have h1 := sound_reached h
  obtain ⟨d, k, r, a, w⟩ := s
  have hh : d = .alive ∧ a = false ∧ k.hasS = false := by
    revert hq
    simp only [step]
    split
    · exact fun _ => ‹_›
    · intro hq; cases hq
  obtain ⟨rfl, rfl, hk⟩ := hh
  have hr : r = true := by revert h1; cases k <;> cases r <;> simp [sound]
  subst hr
  cases k <;> first | (cases hk; done) | skip
  · exact absurd rfl hs
  · have : t = ⟨.alive, .wantS, true, false, w⟩ := by simpa [step, T.hasS, T.notifyStart] using hq.symm
    subst this
    exact ⟨⟨.alive, .wantF, true, true, w⟩, [], by cases w <;> decide +kernel⟩
  · have : t = ⟨.alive, .wantS, true, false, w⟩ := by simpa [step, T.hasS, T.notifyStart] using hq.symm
    subst this
    exact ⟨⟨.alive, .wantF, true, true, w⟩, [], by cases w <;> decide +kernel⟩
  · simp [sound] at h1

/-- Non-vacuity of `C174_arms_partial`. -/
example : Reached ⟨.alive, .wait, true, false, false⟩ := ⟨false, [.t, .t], [], by decide +kernel⟩

end Verif.WriterEnd
