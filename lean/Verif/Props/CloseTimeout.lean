import Verif.Model.CloseTimeout
/-! Property C16: the locks of the close file timeout. -/
namespace Verif.CloseTimeout

theorem run_append (as bs : List Act) : ∀ s, run s (as ++ bs) = (run s as).bind (fun t => run t bs) := by
  induction as with
  | nil => intro s; rfl
  | cons a as ih =>
    intro s
    simp only [List.cons_append, run]
    cases step s a with
    | none => rfl
    | some t => exact ih t

/-- Induction over schedules. -/
theorem run_inv (I : St → Prop) (hs : ∀ s a t, I s → step s a = some t → I t) (as : List Act) :
    ∀ s t, I s → run s as = some t → I t := by
  induction as with
  | nil => intro s t h hr; simp [run] at hr; exact hr ▸ h
  | cons a as ih =>
    intro s t h hr
    simp only [run] at hr
    cases hst : step s a with
    | none => rw [hst] at hr; simp at hr
    | some s' => rw [hst] at hr; exact ih s' t (hs s a s' h hst) hr

/-! ## Finite case analysis -/

def P.all : List P := [.idle, .wantF, .wantM, .work, .wantS]
def C.all : List C := [.idle, .wantM, .work, .wantS]
def T.all : List T := [.wait, .wantS, .awake, .wantF, .loop, .timed, .wantFn, .wantFt, .wantM, .stopping]
def Act.all : List Act :=
  [.pBegin, .pTakeF, .pTakeM, .pPlain, .pComplete, .pMissing, .pTakeS, .pEnd, .cBegin, .cTakeM, .cDone,
   .cStart, .cTakeS, .tTakeS, .tArm, .tTakeF, .tLoop, .tExpire, .tTakeFn, .tTakeFt, .tTakeM, .tStop]
def St.all : List St :=
  P.all.flatMap fun p => C.all.flatMap fun c => T.all.flatMap fun t => [⟨p, c, t, true⟩, ⟨p, c, t, false⟩]

theorem St.mem_all (s : St) : s ∈ St.all := by
  obtain ⟨p, c, t, b⟩ := s
  simp only [St.all, List.mem_flatMap]
  refine ⟨p, by cases p <;> decide, c, by cases c <;> decide, t, by cases t <;> decide, ?_⟩
  cases b <;> simp

theorem Act.mem_all (a : Act) : a ∈ Act.all := by cases a <;> decide

/-- A decidable property of all states can be checked by evaluation: the state space is finite (and this
covers all of it). -/
theorem forall_st (Q : St → Bool) (h : St.all.all Q = true) (s : St) : Q s = true :=
  List.all_eq_true.1 h s (St.mem_all s)

theorem forall_act (Q : Act → Bool) (h : Act.all.all Q = true) (a : Act) : Q a = true :=
  List.all_eq_true.1 h a (Act.mem_all a)

/-! ## Mutual exclusion (sanity of the lock model) -/

/-- No mutex has two owners. -/
def exclusive (s : St) : Bool :=
  !(s.p.hasF && s.t.hasF) && !(s.p.hasM && s.t.hasM) && !(s.p.hasM && s.c.hasM) && !(s.c.hasM && s.t.hasM)

theorem exclusive_run (b : Bool) (s : St) (h : Reach (init b) s) : exclusive s = true := by
  obtain ⟨as, h⟩ := h
  refine run_inv (fun s => exclusive s = true) ?_ as (init b) s (by cases b <;> rfl) h
  intro s a t hs hst
  have key := forall_st (fun s => !exclusive s || Act.all.all (fun a => match step s a with
    | none => true | some t => exclusive t)) (by decide +kernel) s
  simp only [hs, Bool.not_true, Bool.false_or] at key
  have := List.all_eq_true.1 key a (Act.mem_all a)
  rw [hst] at this
  exact this

/-! ## The violation -/

/-- C16, full statement: from every reachable state the frame thread can still finish its frame. -/
def C16_statement : Prop :=
  ∀ (b : Bool) (s : St), Reach (init b) s → ∃ t, Reach s t ∧ t.p = .idle

/-- The frame thread holds F and M and waits for S; the timeout thread holds S and waits for F. -/
def stuck (s : St) : Bool :=
  s.p == .wantS && (s.t == .wantF || s.t == .wantFn || s.t == .wantFt)

theorem stuck_forever (s t : St) (h : stuck s = true) (hr : Reach s t) : stuck t = true := by
  obtain ⟨as, hr⟩ := hr
  refine run_inv (fun s => stuck s = true) ?_ as s t h hr
  intro s a t hs hst
  have key := forall_st (fun s => !stuck s || Act.all.all (fun a => match step s a with
    | none => true | some t => stuck t)) (by decide +kernel) s
  simp only [hs, Bool.not_true, Bool.false_or] at key
  have := List.all_eq_true.1 key a (Act.mem_all a)
  rw [hst] at this
  exact this

/-- Two frames in a row leave frames missing (the second one is a late frame): the second call finds
`timeout_active_` still false although the timeout thread is already on its way. -/
def race : List Act :=
  [.pBegin, .pTakeF, .pTakeM, .pMissing, .pTakeS,      -- last frame, some missing: timer requested
   .tTakeS,                                            -- the timeout thread wakes up
   .pBegin, .pTakeF, .pTakeM, .pMissing,               -- a late frame: timer requested again, wants S
   .tArm]                                              -- the timeout thread wants F

/-- An acquisition that was waiting for missing frames completes, the next one loses frames at once. -/
def nextAcquisition : List Act :=
  [.pBegin, .pTakeF, .pTakeM, .pMissing, .pTakeS, .tTakeS, .tArm, .tTakeF, .tLoop,
   .pBegin, .pTakeF, .pTakeM, .pComplete,
   .pBegin, .pTakeF, .pTakeM, .pMissing]

theorem race_stuck : (run (init false) race).map stuck = some true := by decide +kernel
theorem nextAcquisition_stuck : (run (init false) nextAcquisition).map stuck = some true := by decide +kernel

theorem deadlock_of (as : List Act) (h : (run (init false) as).map stuck = some true) : ¬ C16_statement := by
  intro hc
  cases hr : run (init false) as with
  | none => rw [hr] at h; simp at h
  | some s =>
    rw [hr] at h
    have hs : stuck s = true := by simpa using h
    obtain ⟨t, ht, hi⟩ := hc false s ⟨as, hr⟩
    have := stuck_forever s t hs ht
    simp [stuck, hi] at this

/-- C16 is false of the code: a deadlock of the frame thread and the timeout thread. -/
theorem C16_violated : ¬ C16_statement := deadlock_of race race_stuck

/-- The second way into the deadlock: no race on the flag, only a frame arriving before the timeout thread
got its mutex back. -/
theorem C16_violated_next : ¬ C16_statement := deadlock_of nextAcquisition nextAcquisition_stuck

/-- The same with a configuration message that starts the timer: it holds M and waits for S, the timeout
thread holds S and F and waits for M. Every later frame waits for F forever. -/
def stuckC (s : St) : Bool :=
  s.c == .wantS && (s.t == .wantM) && (s.p == .idle || s.p == .wantF)

def configRace : List Act :=
  [.cBegin, .cTakeM, .cStart, .cTakeS, .tTakeS, .tArm, .tTakeF, .tLoop,  -- a message starts the timer
   .pEnd,                                                                -- end of acquisition frame
   .tExpire, .tTakeFt,                                                   -- the timer expires all the same
   .cBegin, .cTakeM, .cStart]                                            -- another message starts it again

theorem C16_config_deadlock : ∃ s, run (init false) configRace = some s ∧ stuckC s = true ∧
    ∀ t, Reach s t → stuckC t = true := by
  refine ⟨⟨.idle, .wantS, .wantM, false⟩, by decide +kernel, by decide, ?_⟩
  rintro t ⟨as, hr⟩
  refine run_inv (fun s => stuckC s = true) ?_ as _ t (by decide) hr
  intro s a t hs hst
  have key := forall_st (fun s => !stuckC s || Act.all.all (fun a => match step s a with
    | none => true | some t => stuckC t)) (by decide +kernel) s
  simp only [hs, Bool.not_true, Bool.false_or] at key
  have := List.all_eq_true.1 key a (Act.mem_all a)
  rw [hst] at this
  exact this

/-! ## What does hold -/

/-- A step that respects the missing protocol: no message starts the timer, and a frame asks for the
timer only while the timeout thread waits to be started. -/
def Spec.Orderly (s : St) (a : Act) : Prop :=
  a ≠ .cStart ∧ (a = .pMissing → s.active = false → s.t = .wait)

instance (s : St) (a : Act) : Decidable (Spec.Orderly s a) :=
  inferInstanceAs (Decidable (_ ∧ _))

/-- Schedules of such steps. -/
inductive Orderly : St → St → Prop
  | refl (s : St) : Orderly s s
  | step (s t u : St) (a : Act) : Orderly s t → Spec.Orderly t a → step t a = some u → Orderly s u

/-- While such schedules run: the frame thread asks for S only when the timeout thread waits. -/
def fine (s : St) : Bool := exclusive s && (s.p != .wantS || s.t == .wait) && s.c != .wantS

theorem fine_step (s t : St) (a : Act) (h : fine s = true) (ha : Spec.Orderly s a) (hst : step s a = some t) :
    fine t = true := by
  have key := forall_st (fun s => !fine s || Act.all.all (fun a => !decide (Spec.Orderly s a) ||
    match step s a with | none => true | some t => fine t)) (by decide +kernel) s
  simp only [h, Bool.not_true, Bool.false_or] at key
  have := List.all_eq_true.1 key a (Act.mem_all a)
  rw [hst] at this
  simpa [ha] using this

/-- A step that brings the threads closer to being idle, always one that is not a new piece of work. -/
def nextAct (s : St) : Option Act :=
  if s.p = .idle then none
  else match s.p with
  | .work => some .pPlain
  | .wantS => some .pTakeS
  | .wantM => if s.c.hasM then some .cDone else some .pTakeM
  | .wantF =>
    match s.t with
    | .loop => some .tLoop
    | .stopping => some .tStop
    | .wantM => if s.c.hasM then some .cDone else some .tTakeM
    | _ => some .pTakeF
  | .idle => none

def advance : Nat → St → St
  | 0, s => s
  | n + 1, s =>
    match nextAct s with
    | none => s
    | some a => match step s a with | none => s | some t => advance n t

theorem advance_reach (n : Nat) : ∀ s, Reach s (advance n s) := by
  induction n with
  | zero => intro s; exact ⟨[], rfl⟩
  | succ n ih =>
    intro s
    unfold advance
    cases h : nextAct s with
    | none => exact ⟨[], rfl⟩
    | some a =>
      dsimp only
      cases hs : step s a with
      | none => exact ⟨[], rfl⟩
      | some t =>
        obtain ⟨as, h2⟩ := ih t
        exact ⟨a :: as, by simp only [run, hs]; exact h2⟩

/-- C16, proved part: as long as no message starts the timer and a frame asks for it only while the timeout
thread is waiting to be started, the frame thread can finish its frame from every state reached, however
long the history. Missing: the other cases, where the claim fails; spurious wake-ups. -/
theorem C16_partial (b : Bool) (s : St) (h : Orderly (init b) s) : ∃ t, Reach s t ∧ t.p = .idle := by
  have hf : fine s = true := by
    induction h with
    | refl => cases b <;> rfl
    | step t u a _ ha hst ih => exact fine_step t u a ih ha hst
  refine ⟨advance 8 s, advance_reach 8 s, ?_⟩
  have key := forall_st (fun s => !fine s || decide ((advance 8 s).p = .idle)) (by decide +kernel) s
  simpa [hf] using key

/-- Non-vacuity of `C16_partial`: the timer is started, expires and stops the acquisition in such a
schedule, while a frame waits. -/
example : ∃ s, Orderly (init false) s ∧ s.t = .stopping ∧ s.p = .wantF := by
  have h : ∀ as s t, Orderly (init false) s → run s as = some t →
      (∀ a ∈ as, a ≠ .cStart ∧ a ≠ .pMissing) → Orderly (init false) t := by
    intro as
    induction as with
    | nil => intro s t h hr _; simp [run] at hr; exact hr ▸ h
    | cons a as ih =>
      intro s t h hr hn
      simp only [run] at hr
      cases hst : step s a with
      | none => rw [hst] at hr; simp at hr
      | some s' =>
        rw [hst] at hr
        have := hn a (by simp)
        exact ih s' t (Orderly.step _ _ _ a h ⟨this.1, fun h => absurd h this.2⟩ hst) hr
          (fun b hb => hn b (by simp [hb]))
  have h1 : Orderly (init false) ⟨.work, .idle, .wait, false⟩ :=
    h [.pBegin, .pTakeF, .pTakeM] _ _ (.refl _) (by decide) (by decide)
  have h2 : Orderly (init false) ⟨.wantS, .idle, .wait, false⟩ :=
    .step _ _ _ .pMissing h1 ⟨by decide, fun _ _ => rfl⟩ rfl
  exact ⟨⟨.wantF, .idle, .stopping, true⟩,
    h [.pTakeS, .tTakeS, .tArm, .tTakeF, .tLoop, .tExpire, .tTakeFt, .tTakeM, .pBegin] _ _ h2 (by decide)
      (by decide), rfl, rfl⟩

end Verif.CloseTimeout
