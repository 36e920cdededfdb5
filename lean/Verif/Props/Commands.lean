import Verif.Props.Restart
/-! Properties C56 (start and stop commands) and C57 (the close file timeout). -/
namespace Verif.FW
open Verif.Placement Verif.Acq

/-! ## C56 -/

/-- C56: the start command while writing leaves the running acquisition and all files alone. -/
theorem C56_start_while_writing (s : State) (e : Env) (h : s.writing = true) :
    (step s (.start e)).1.cur = s.cur ∧ (step s (.start e)).1.disks = s.disks ∧
    (step s (.start e)).1.writing = true := by
  simp only [step]
  unfold executeStart startWriting
  split
  · simp [h]
  · simp [h]

/-- The settings an acquisition is started with. -/
structure Spec.StartedAs (s : State) (a : Acq) : Prop where
  geom : a.geom = s.geom
  filename : a.naming.configured = s.next.filename
  acqId : a.naming.acqId = s.next.acqId
  postfixStr : a.naming.postfixStr = s.postfixStr
  useNumbers : a.naming.useNumbers = s.useNumbers
  start : a.naming.start = s.firstIndex
  master : a.master = s.master
  defs : a.defs = s.defs
  total : a.totalFrames = s.next.total
  written : a.framesWritten = 0
  processed : a.framesProcessed = 0

theorem start_zero (e : Env) (a0 a : Acq) (h : startAcquisition e a0 = some (a, .ok)) :
    a.framesWritten = a0.framesWritten ∧ a.framesProcessed = a0.framesProcessed := by
  unfold startAcquisition at h
  split at h
  · simp at h
  · have h := Option.some.inj h
    have := createFile_created e (a0.publish .start) a0.geom.rank
    rw [h] at this
    exact ⟨this.written, this.processed⟩

theorem startedAs (s : State) (e : Env) (a : Acq) (h : startAcquisition e s.nextAcq = some (a, .ok)) :
    Spec.StartedAs s a := by
  have hc := (start_inv e _ a rfl h).2.1
  have hz := start_zero e _ a h
  exact ⟨hc.geom, by rw [hc.naming]; rfl, by rw [hc.naming]; rfl, by rw [hc.naming]; rfl,
    by rw [hc.naming]; rfl, by rw [hc.naming]; rfl, hc.master, hc.defs, hc.total, hz.1, hz.2⟩

/-- C56: if the start command begins to write, the acquisition has exactly the settings made for the next
one, its counters are 0, its path is the configured one, and the settings are used up. -/
theorem C56_start_uses_next (s : State) (e : Env) (h : s.writing = false)
    (h' : (step s (.start e)).1.writing = true) :
    Spec.StartedAs s (step s (.start e)).1.cur.acq ∧ (step s (.start e)).1.cur.path = s.next.path ∧
    (step s (.start e)).1.next = {} := by
  simp only [step] at h' ⊢
  unfold executeStart at h' ⊢
  split at h'
  · simp [h] at h'
  · rename_i hz
    rw [if_neg hz]
    rcases startWriting_idle e s h with h1 | ⟨a, h1, h2⟩
    · rw [h1] at h'; simp at h'
    · rw [h2]
      exact ⟨startedAs s e a h1, rfl, rfl⟩

/-- C56: the start command does begin to write, if a name is set, frames are expected, the numbers of processes and blocks are usable, the file can be
created and the datasets are well formed (`startAcquisition` succeeds). -/
theorem C56_start_starts (s : State) (e : Env) (a : Acq) (h : s.writing = false)
    (hz : s.geom.bad = false) (hn : ¬ (s.next.total > 0 ∧ s.next.toWrite = 0))
    (hs : startAcquisition e s.nextAcq = some (a, .ok)) :
    (step s (.start e)).1.writing = true ∧ (step s (.start e)).2.outcome = .ok := by
  simp only [step]
  unfold executeStart startWriting
  rw [if_neg hn, if_neg (by simp [h]), if_neg (by rw [hz]; simp), hs]
  simp

/-- C56: without a file name and without an acquisition id nothing is started and no file is touched. -/
theorem C56_no_name (s : State) (e : Env) (h : s.writing = false) (hf : s.next.filename = [])
    (hi : s.next.acqId = []) :
    (step s (.start e)).1.writing = false ∧ (step s (.start e)).1.disks = s.disks := by
  have hs : startAcquisition e s.nextAcq = none := by
    unfold startAcquisition
    rw [if_pos]
    by_cases hg : Filename.generate s.nextAcq.naming s.nextAcq.geom.rank = []
    · exact hg
    · have hg := (Filename.C03_nonempty _ _).1 hg
      simp [State.nextAcq, fresh, State.naming, hf, hi] at hg
  simp only [step]
  unfold executeStart
  split
  · simp [h]
  · unfold startWriting
    rw [if_neg (by simp [h])]
    split
    · simp [h]
    · rw [hs]; simp [State.swap, h]

/-- C56: the stop command ends the acquisition, keeps the settings for the next one and everything on
disk, and announces the closing of the open files. -/
theorem C56_stop (s : State) (h : Agrees s) :
    (step s .stop).1.writing = false ∧ (step s .stop).1.next = s.next ∧ (step s .stop).1.disks = s.disks ∧
    (s.writing = true → (step s .stop).1.cur.acq = stopAcquisition s.cur.acq) := by
  refine ⟨stopWriting_idle s, stopWriting_next s, stopWriting_disks s h, fun hw => ?_⟩
  simp only [step]
  unfold stopWriting
  rw [if_pos hw]
  rfl

/-- C56: a second stop command does nothing. -/
theorem C56_stop_twice (s : State) : step (step s .stop).1 .stop = ((step s .stop).1, {}) := by
  have h := stopWriting_idle s
  simp only [step]
  have : ∀ t : State, t.writing = false → stopWriting t = t := by
    intro t ht; unfold stopWriting; rw [if_neg (by rw [ht]; simp)]
  rw [this _ h]

/-- Non-vacuity of C56. -/
example : exPlugin.writing = true ∧ (step exPlugin .stop).1.writing = false ∧
    (run exPlugin [.stop, .config [.filename ['s'], .frames 3], .start okEnv]).1.writing = true ∧
    (run exPlugin [.stop, .config [.filename ['s'], .frames 3], .start okEnv]).1.cur.filename = ['s'] ∧
    (run exPlugin [.stop, .start okEnv]).1.writing = false := by
  decide +kernel

/-! ## C57 -/

/-- Ending the acquisition: afterwards nothing is written, or the next acquisition is. -/
theorem stopAcq_ends (e : Env) (s : State) :
    (stopAcq e s).1.writing = false ∨
    ((s.next.filename ≠ [] ∨ s.next.acqId ≠ []) ∧ Spec.StartedAs s (stopAcq e s).1.cur.acq) := by
  have hset := stopWriting_settings s
  have hnext := stopWriting_next s
  have hidle := stopWriting_idle s
  unfold stopAcq
  dsimp only
  split
  · rename_i hr
    rw [hnext] at hr
    split
    · exact Or.inl hidle
    · cases hst : startWriting e (stopWriting s) with
      | mk s2 o =>
        rcases startWriting_idle e _ hidle with h1 | ⟨a, h1, h2⟩
        · rw [hst] at h1
          left
          cases o <;> exact h1
        · right
          rw [hst] at h2
          have ho : o = .ok := (Prod.mk.inj h2).2
          have h3 := (Prod.mk.inj h2).1
          subst ho
          have hs := startedAs (stopWriting s) e a h1
          refine ⟨hr.2, ?_⟩
          show Spec.StartedAs s s2.cur.acq
          rw [h3]
          exact ⟨hs.geom.trans hset.geom, by rw [← hnext]; exact hs.filename, by rw [← hnext]; exact hs.acqId,
            hs.postfixStr.trans hset.postfixStr, hs.useNumbers.trans hset.useNumbers,
            hs.start.trans hset.firstIndex, hs.master.trans hset.master, hs.defs.trans hset.defs,
            by rw [← hnext]; exact hs.total, hs.written, hs.processed⟩
  · exact Or.inl hidle

/-- The acquisition of `s` no longer runs in `t`: nothing does, or a new one with zero counters. -/
def Spec.Ended (s t : State) : Prop :=
  t.writing = false ∨ ((s.next.filename ≠ [] ∨ s.next.acqId ≠ []) ∧ Spec.StartedAs s t.cur.acq)

/-- C57, full statement: if the last frame arrives with frames missing and then no frame comes for the
timeout period, the acquisition is ended. -/
def C57_statement : Prop :=
  ∀ (e : Env) (b : Bool) (d : String → Disk) (ops : List Op) (id : List Char) (f : Frame) (s : State),
    s = (run (init e b d) ops).1 →
    (step s (.frame e id f)).2.status = some .completeMissing →
    Spec.Ended (step s (.frame e id f)).1
      (run (step s (.frame e id f)).1 [.timerNotified, .timerStarts, .timerExpires e]).1

/-- Three frames, the second never arrives. -/
def exMissing : List Op :=
  [.config [.filename ['r'], .dataset "data" exDsetCfg, .frames 3], .start okEnv,
   .frame okEnv [] (exFrame 0 70)]

theorem exMissing_facts :
    let s (b : Bool) := (run (init okEnv b (fun _ _ => none)) exMissing).1
    let t (b : Bool) := (step (s b) (.frame okEnv [] (exFrame 2 72)))
    (t true).2.status = some .completeMissing ∧
    (run (t true).1 [.timerNotified, .timerStarts, .timerExpires okEnv]).1.writing = true ∧
    (t true).1.next = {} ∧
    (t false).2.status = some .completeMissing ∧
    (run (t false).1 [.timerNotified, .timerStarts, .timerExpires okEnv]).1.writing = false := by
  decide +kernel

/-- C57 is false of the code: `timeout_active_` is not initialised, and if its first value happens to be
true the timer is never started. -/
theorem C57_violated : ¬ C57_statement := by
  intro h
  obtain ⟨h1, h2, h3, _⟩ := exMissing_facts
  rcases h okEnv true (fun _ _ => none) exMissing [] (exFrame 2 72) _ rfl h1 with h4 | ⟨h4, _⟩
  · rw [h2] at h4; simp at h4
  · rw [h3] at h4; simp at h4

/-- The timer can be started, is requested, or runs. -/
def TimerOK (s : State) : Prop := s.timeoutActive = true → s.timerRunning = true

theorem startWriting_timer (e : Env) (s : State) :
    (startWriting e s).1.timeoutActive = s.timeoutActive ∧
    (startWriting e s).1.timerRunning = s.timerRunning := by
  unfold startWriting
  split
  · exact ⟨rfl, rfl⟩
  · split
    · exact ⟨rfl, rfl⟩
    · split <;> exact ⟨rfl, rfl⟩

theorem stopWriting_timer (s : State) :
    (stopWriting s).timeoutActive = s.timeoutActive ∧ (stopWriting s).timerRunning = s.timerRunning := by
  unfold stopWriting
  split <;> exact ⟨rfl, rfl⟩

theorem stopAcq_timer (e : Env) (s : State) (h : TimerOK s) : TimerOK (stopAcq e s).1 := by
  obtain ⟨h1, h2⟩ := stopWriting_timer s
  obtain ⟨h3, h4⟩ := startWriting_timer e (stopWriting s)
  unfold stopAcq
  dsimp only
  split
  · split
    · intro h; simp at h
    · cases hst : startWriting e (stopWriting s) with
      | mk s2 o =>
        rw [hst] at h3 h4
        simp only at h3 h4
        cases o with
        | ok => intro h; simp at h
        | threw => intro h'; rw [h4, h2]; simp only at h'; rw [h3, h1] at h'; exact h h'
        | ub => intro h'; rw [h4, h2]; simp only at h'; rw [h3, h1] at h'; exact h h'
  · intro h; simp at h

theorem frameInAcquisition_timer (e : Env) (s : State) (id) :
    (frameInAcquisition e s id).1.timeoutActive = s.timeoutActive ∧
    (frameInAcquisition e s id).1.timerRunning = s.timerRunning := by
  unfold frameInAcquisition
  split
  · exact ⟨rfl, rfl⟩
  · split
    · exact ⟨rfl, rfl⟩
    · split
      · obtain ⟨h1, h2⟩ := stopWriting_timer s
        obtain ⟨h3, h4⟩ := startWriting_timer e (stopWriting s)
        exact ⟨h3.trans h1, h4.trans h2⟩
      · exact ⟨rfl, rfl⟩

theorem applySetting_timer (s : State) (x : Setting) (h : TimerOK s) : TimerOK (applySetting s x).1 := by
  cases x <;> simp only [applySetting, changeGeom, requestTimeout] <;> (repeat' split) <;> exact h

theorem configure_timer (xs : List Setting) : ∀ s, TimerOK s → TimerOK (configure s xs).1 := by
  induction xs with
  | nil => intro s h; exact h
  | cons x xs ih =>
    intro s h
    have h1 := applySetting_timer s x h
    unfold configure
    cases hx : applySetting s x with
    | mk s' o =>
      rw [hx] at h1
      cases o
      · exact ih s' h1
      · exact h1
      · exact h1

theorem requestTimeout_timer (s : State) (h : TimerOK s) : TimerOK (requestTimeout s) := by
  unfold requestTimeout
  split <;> exact h

theorem step_timer (s : State) (o : Op) (h : TimerOK s) : TimerOK (step s o).1 := by
  cases o with
  | config xs => exact configure_timer xs s h
  | start e =>
    simp only [step]
    unfold executeStart
    split
    · split <;> exact h
    · obtain ⟨h1, h2⟩ := startWriting_timer e s
      intro h'; rw [h2]; rw [h1] at h'; exact h h'
  | stop =>
    obtain ⟨h1, h2⟩ := stopWriting_timer s
    intro h'
    simp only [step] at h' ⊢
    rw [h2]; rw [h1] at h'; exact h h'
  | frame e id f =>
    have h0 := frameInAcquisition_timer e s id
    simp only [step]
    apply processFrame_cases e s id f (fun t _ => TimerOK t)
    · intro s1 b o hin; rw [hin] at h0; intro h'; rw [h0.2]; rw [h0.1] at h'; exact h h'
    · intro s1 hin _
      rw [hin] at h0
      have h1 : TimerOK s1 := by intro h'; rw [h0.2]; rw [h0.1] at h'; exact h h'
      exact ⟨fun a _ => stopAcq_timer e _ h1, fun a _ => requestTimeout_timer _ h1, fun a _ => h1,
        fun a _ _ _ => h1⟩
  | endOfAcquisition e =>
    simp only [step]
    split
    · exact stopAcq_timer e s h
    · exact h
  | timerStarts =>
    simp only [step]
    split
    · intro _; rfl
    · exact h
  | timerNotified =>
    simp only [step]
    intro h'
    simp only at h' ⊢
    simp [h', h h']
  | timerExpires e =>
    simp only [step]
    split
    · split
      · intro h; simp at h
      · intro h; simp at h
    · exact h

theorem completeMissing_requests (e : Env) (s : State) (id) (f : Frame)
    (h : (step s (.frame e id f)).2.status = some .completeMissing) :
    (step s (.frame e id f)).1.writing = true ∧
    ((step s (.frame e id f)).1.timeoutActive = true ∨ (step s (.frame e id f)).1.timeoutRequested = true) := by
  revert h
  simp only [step]
  apply processFrame_cases e s id f (fun t r => r.status = some .completeMissing →
    t.writing = true ∧ (t.timeoutActive = true ∨ t.timeoutRequested = true))
  · intro s1 b o _ h; simp at h
  · intro s1 hin hw
    refine ⟨fun a _ h => by simp at h, fun a _ _ => ?_, fun a _ h => by simp at h, fun a st hst _ h => ?_⟩
    · unfold requestTimeout
      split
      · rename_i h; exact ⟨hw, Or.inl h⟩
      · exact ⟨hw, Or.inr rfl⟩
    · rcases hst with rfl | rfl <;> simp at h

/-- C57, proved part: if `timeout_active_` starts as false (it is never initialised), then after a frame
with status "complete with missing frames" the expiry of the timer ends the acquisition. When the timer
was stopped but its thread has not noticed yet (`timerRunning`), it first has to see the notification of
the frame. Missing: the uninitialised flag; the locks, see C16. -/
theorem C57_partial (e : Env) (d : String → Disk) (ops : List Op) (id : List Char) (f : Frame) (s t : State)
    (hs : s = (run (init e false d) ops).1)
    (h : (step s (.frame e id f)).2.status = some .completeMissing)
    (ht : t = (step s (.frame e id f)).1) :
    Spec.Ended t (run t [.timerNotified, .timerStarts, .timerExpires e]).1 := by
  have hrun : ∀ (ops : List Op) (s : State), TimerOK s → TimerOK (run s ops).1 := by
    intro ops
    induction ops with
    | nil => intro s h; exact h
    | cons o os ih => intro s h; exact ih _ (step_timer s o h)
  have h1 : TimerOK s := by rw [hs]; exact hrun ops _ (by intro h; simp [init] at h)
  have h2 : TimerOK t := by rw [ht]; exact step_timer s _ h1
  obtain ⟨hw, hreq⟩ := completeMissing_requests e s id f h
  rw [← ht] at hw hreq
  -- after the notification and the start the timer runs and is active
  have key : ∀ u : State, u.writing = true → u.timerRunning = true → u.timeoutActive = true →
      u.next = t.next → SameSettings t u → Spec.Ended t (step u (.timerExpires e)).1 := by
    intro u k1 k2 k3 k4 k5
    simp only [step, k1, k2, k3, Bool.and_self, if_true]
    rcases stopAcq_ends e u with h' | ⟨h', h''⟩
    · exact Or.inl h'
    · right
      rw [k4] at h'
      refine ⟨h', ?_⟩
      exact ⟨h''.geom.trans k5.geom, by rw [← k4]; exact h''.filename, by rw [← k4]; exact h''.acqId,
        h''.postfixStr.trans k5.postfixStr, h''.useNumbers.trans k5.useNumbers,
        h''.start.trans k5.firstIndex, h''.master.trans k5.master, h''.defs.trans k5.defs,
        by rw [← k4]; exact h''.total, h''.written, h''.processed⟩
  show Spec.Ended t (step (step (step t .timerNotified).1 .timerStarts).1 (.timerExpires e)).1
  cases ha : t.timeoutActive with
  | true =>
    have hr := h2 ha
    have hst : (step (step t .timerNotified).1 .timerStarts).1 = t := by
      simp only [step, hr, ha, Bool.and_self, Bool.not_true, Bool.and_false, Bool.false_eq_true, if_false]
      cases t; simp_all
    rw [hst]
    exact key t hw hr ha rfl (.refl t)
  | false =>
    have hq : t.timeoutRequested = true := by
      rcases hreq with h' | h'
      · rw [ha] at h'; simp at h'
      · exact h'
    apply key
    all_goals simp only [step, ha, hq, Bool.and_false, Bool.not_false, Bool.and_self, if_true]
    · exact hw
    · exact ⟨rfl, rfl, rfl, rfl, rfl, rfl, rfl⟩

/-- C57: the timer never ends an acquisition while it is not armed: after every end of an acquisition it
is disarmed, and its expiry then changes no acquisition. -/
theorem C57_disarmed (e e' : Env) (s : State) (h : (stopAcq e s).2 = .ok) :
    (stopAcq e s).1.timeoutActive = false ∧
    (step (stopAcq e s).1 (.timerExpires e')).1.cur = (stopAcq e s).1.cur ∧
    (step (stopAcq e s).1 (.timerExpires e')).1.writing = (stopAcq e s).1.writing ∧
    (step (stopAcq e s).1 (.timerExpires e')).1.disks = (stopAcq e s).1.disks := by
  have ha : (stopAcq e s).1.timeoutActive = false := by
    revert h
    unfold stopAcq
    dsimp only
    split
    · split
      · intro _; rfl
      · cases hst : startWriting e (stopWriting s) with
        | mk s2 o => cases o <;> intro h <;> first | rfl | simp at h
    · intro _; rfl
  refine ⟨ha, ?_⟩
  simp only [step, ha, Bool.and_false, Bool.false_eq_true, if_false]
  split <;> exact ⟨rfl, rfl, rfl⟩

theorem armed_again (e : Env) (s : State) :
    (run s [.timerStarts, .timerExpires e, .timerStarts]).1.timeoutActive = true →
    s.timerRunning = false ∧ s.timeoutRequested = false ∧ s.timeoutActive = true ∨
    s.timerRunning = true ∧ s.timeoutRequested = true := by
  show (step (step (step s .timerStarts).1 (.timerExpires e)).1 .timerStarts).1.timeoutActive = true → _
  have hreq : ∀ u : State, (stopAcq e u).1.timeoutRequested = u.timeoutRequested := by
    intro u
    unfold stopAcq
    dsimp only
    have h1 : ∀ v : State, (stopWriting v).timeoutRequested = v.timeoutRequested := by
      intro v; unfold stopWriting; split <;> rfl
    have h2 : ∀ v : State, (startWriting e v).1.timeoutRequested = v.timeoutRequested := by
      intro v
      unfold startWriting
      split
      · rfl
      · split
        · rfl
        · split <;> rfl
    split
    · split
      · exact h1 u
      · cases hst : startWriting e (stopWriting u) with
        | mk s2 o =>
          have := h2 (stopWriting u)
          rw [hst] at this
          cases o <;> exact this.trans (h1 u)
    · exact h1 u
  cases hr : s.timerRunning <;> cases hq : s.timeoutRequested <;> cases ha : s.timeoutActive <;>
    simp only [step, hr, hq, ha, Bool.and_false, Bool.and_true, Bool.not_true, Bool.not_false, if_true, if_false, Bool.false_eq_true] <;>
    first
    | (intro _; simp; done)
    | (intro h; simp [ha, hq, hr] at h; done)
    | (split <;> intro h <;> simp [hreq, hq] at h)

/-- C57: one request arms the timer once. A requested timer is armed; when it has expired it is not armed
again without a new request. -/
theorem C57_armed_once (e : Env) (s : State) (hr : s.timerRunning = false) (hq : s.timeoutRequested = true) :
    (step s .timerStarts).1.timeoutActive = true ∧
    (run s [.timerStarts, .timerExpires e, .timerStarts]).1.timeoutActive = false := by
  refine ⟨by simp [step, hr, hq], ?_⟩
  have := armed_again e s
  rw [hr, hq] at this
  cases h : (run s [.timerStarts, .timerExpires e, .timerStarts]).1.timeoutActive with
  | false => rfl
  | true => have := this h; simp at this

example :
    let s := (run (init okEnv false (fun _ _ => none)) (exMissing ++ [.frame okEnv [] (exFrame 2 72)])).1
    s.timerRunning = false ∧ s.timeoutRequested = true := by
  decide +kernel

/-- Non-vacuity of `C57_partial`: `exMissing_facts`, and with a next acquisition configured. -/
example :
    let s := (run (init okEnv false (fun _ _ => none)) (exMissing ++ [.config [.filename ['q'], .frames 5]])).1
    let t := (step s (.frame okEnv [] (exFrame 2 72)))
    t.2.status = some .completeMissing ∧
    (run t.1 [.timerNotified, .timerStarts, .timerExpires okEnv]).1.writing = true ∧
    (run t.1 [.timerNotified, .timerStarts, .timerExpires okEnv]).1.cur.filename = ['q'] := by
  decide +kernel

end Verif.FW
