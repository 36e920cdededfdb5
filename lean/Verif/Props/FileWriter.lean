import Verif.Model.FileWriter
import Verif.Props.Sizes
/-! Properties C12, C13, C14 and C15 of the file writer plugin. -/
namespace Verif.FW
open Verif.Placement Verif.Acq

/-! ## Facts about the single operations -/

/-- `start_writing` when not writing: either nothing is being written afterwards, or the next acquisition
was started and is the current one. -/
theorem startWriting_idle (e : Env) (s : State) (h : s.writing = false) :
    (startWriting e s).1.writing = false ∨
    ∃ a, startAcquisition e s.nextAcq = some (a, .ok) ∧
      startWriting e s = ({ (s.swap e).setAcq a with writing := true }, .ok) := by
  unfold startWriting
  rw [if_neg (by rw [h]; simp)]
  split
  · exact Or.inl h
  · cases hs : startAcquisition e s.nextAcq with
    | none => exact Or.inl h
    | some r =>
      obtain ⟨a, o⟩ := r
      cases o with
      | ok => exact Or.inr ⟨a, rfl, rfl⟩
      | threw => exact Or.inl h
      | ub => exact Or.inl h

/-- The settings no start or stop changes. -/
structure SameSettings (s t : State) : Prop where
  geom : t.geom = s.geom
  defs : t.defs = s.defs
  firstIndex : t.firstIndex = s.firstIndex
  useNumbers : t.useNumbers = s.useNumbers
  postfixStr : t.postfixStr = s.postfixStr
  ext : t.ext = s.ext
  master : t.master = s.master

theorem SameSettings.refl (s : State) : SameSettings s s := ⟨rfl, rfl, rfl, rfl, rfl, rfl, rfl⟩

theorem SameSettings.trans {s t u : State} (h : SameSettings s t) (k : SameSettings t u) :
    SameSettings s u :=
  ⟨k.geom.trans h.geom, k.defs.trans h.defs, k.firstIndex.trans h.firstIndex,
   k.useNumbers.trans h.useNumbers, k.postfixStr.trans h.postfixStr, k.ext.trans h.ext,
   k.master.trans h.master⟩

theorem startWriting_settings (e : Env) (s : State) : SameSettings s (startWriting e s).1 := by
  unfold startWriting
  split
  · exact .refl s
  · split
    · exact .refl s
    · split <;> exact ⟨rfl, rfl, rfl, rfl, rfl, rfl, rfl⟩

theorem stopWriting_settings (s : State) : SameSettings s (stopWriting s) := by
  unfold stopWriting
  split
  · exact ⟨rfl, rfl, rfl, rfl, rfl, rfl, rfl⟩
  · exact .refl s

theorem stopWriting_idle (s : State) : (stopWriting s).writing = false := by
  unfold stopWriting
  split
  · rfl
  · simpa using ‹¬ s.writing = true›

theorem stopWriting_next (s : State) : (stopWriting s).next = s.next := by
  unfold stopWriting
  split <;> rfl

theorem stopAcq_settings (e : Env) (s : State) : SameSettings s (stopAcq e s).1 := by
  have h1 := stopWriting_settings s
  have h2 := startWriting_settings e (stopWriting s)
  unfold stopAcq
  dsimp only
  split
  · split
    · exact ⟨h1.geom, h1.defs, h1.firstIndex, h1.useNumbers, h1.postfixStr, h1.ext, h1.master⟩
    · cases hs : startWriting e (stopWriting s) with
      | mk s2 o =>
        rw [hs] at h2
        have h3 := h1.trans h2
        cases o with
        | ok => exact ⟨h3.geom, h3.defs, h3.firstIndex, h3.useNumbers, h3.postfixStr, h3.ext, h3.master⟩
        | threw => exact h3
        | ub => exact h3
  · exact ⟨h1.geom, h1.defs, h1.firstIndex, h1.useNumbers, h1.postfixStr, h1.ext, h1.master⟩

theorem frameInAcquisition_settings (e : Env) (s : State) (id) :
    SameSettings s (frameInAcquisition e s id).1 := by
  unfold frameInAcquisition
  split
  · exact .refl s
  · split
    · exact .refl s
    · split
      · exact (stopWriting_settings s).trans (startWriting_settings e _)
      · exact .refl s

theorem setAcq_settings (s : State) (a : Acq) : SameSettings s (s.setAcq a) :=
  ⟨rfl, rfl, rfl, rfl, rfl, rfl, rfl⟩

theorem requestTimeout_settings (s : State) : SameSettings s (requestTimeout s) := by
  unfold requestTimeout
  split <;> exact ⟨rfl, rfl, rfl, rfl, rfl, rfl, rfl⟩

/-- What `process_frame` does, by cases. -/
theorem processFrame_cases (e : Env) (s : State) (id) (f : Frame) (Q : State → FrameResult → Prop)
    (hnot : ∀ s1 b o, frameInAcquisition e s id = (s1, b, o) → Q s1 { outcome := o })
    (hwr : ∀ s1, frameInAcquisition e s id = (s1, true, .ok) → s1.writing = true →
      (∀ a, Acq.processFrame s1.cur.env s1.cur.acq f = (a, .complete) →
        Q (stopAcq e (s1.setAcq a)).1
          { status := some .complete, into := some s1.cur.id,
            pushed := (stopAcq e (s1.setAcq a)).2 = .ok, outcome := (stopAcq e (s1.setAcq a)).2 }) ∧
      (∀ a, Acq.processFrame s1.cur.env s1.cur.acq f = (a, .completeMissing) →
        Q (requestTimeout (s1.setAcq a))
          { status := some .completeMissing, into := some s1.cur.id, pushed := true }) ∧
      (∀ a, Acq.processFrame s1.cur.env s1.cur.acq f = (a, .ub) →
        Q (s1.setAcq a) { status := some .ub, into := some s1.cur.id, outcome := .ub }) ∧
      (∀ a st, (st = .ok ∨ st = .invalid) → Acq.processFrame s1.cur.env s1.cur.acq f = (a, st) →
        Q (s1.setAcq a) { status := some st, into := some s1.cur.id, pushed := true })) :
    Q (processFrame e s id f).1 (processFrame e s id f).2 := by
  unfold processFrame
  cases hin : frameInAcquisition e s id with
  | mk s1 r =>
    obtain ⟨b, o⟩ := r
    cases o with
    | threw => cases b <;> exact hnot s1 _ _ hin
    | ub => cases b <;> exact hnot s1 _ _ hin
    | ok =>
      cases b with
      | false => exact hnot s1 _ _ hin
      | true =>
        dsimp only
        by_cases hw : s1.writing = true
        · rw [if_pos hw]
          obtain ⟨h1, h2, h3, h4⟩ := hwr s1 hin hw
          cases hp : Acq.processFrame s1.cur.env s1.cur.acq f with
          | mk a st =>
            cases st with
            | complete => exact h1 a hp
            | completeMissing => exact h2 a hp
            | ub => exact h3 a hp
            | ok => exact h4 a _ (Or.inl rfl) hp
            | invalid => exact h4 a _ (Or.inr rfl) hp
        · rw [if_neg hw]
          exact hnot s1 _ _ hin

theorem processFrame_settings (e : Env) (s : State) (id) (f : Frame) :
    SameSettings s (processFrame e s id f).1 := by
  have h0 := frameInAcquisition_settings e s id
  apply processFrame_cases e s id f (fun t _ => SameSettings s t)
  · intro s1 b o h; rw [h] at h0; exact h0
  · intro s1 h _
    rw [h] at h0
    exact ⟨fun a _ => (h0.trans (setAcq_settings s1 a)).trans (stopAcq_settings e _),
      fun a _ => (h0.trans (setAcq_settings s1 a)).trans (requestTimeout_settings _),
      fun a _ => h0.trans (setAcq_settings s1 a), fun a _ _ _ => h0.trans (setAcq_settings s1 a)⟩

/-- Only configuration messages change settings. -/
theorem step_settings (s : State) (o : Op) (h : ∀ xs, o ≠ .config xs) :
    SameSettings s (step s o).1 := by
  cases o with
  | config xs => exact absurd rfl (h xs)
  | start e =>
    simp only [step]
    unfold executeStart
    split
    · split <;> exact ⟨rfl, rfl, rfl, rfl, rfl, rfl, rfl⟩
    · exact startWriting_settings e s
  | stop => exact stopWriting_settings s
  | frame e id f => exact processFrame_settings e s id f
  | endOfAcquisition e =>
    simp only [step]
    split
    · exact stopAcq_settings e s
    · exact .refl s
  | timerStarts =>
    simp only [step]
    split <;> exact ⟨rfl, rfl, rfl, rfl, rfl, rfl, rfl⟩
  | timerNotified => exact ⟨rfl, rfl, rfl, rfl, rfl, rfl, rfl⟩
  | timerExpires e =>
    simp only [step]
    split
    · split
      · have := stopAcq_settings e s
        exact ⟨this.geom, this.defs, this.firstIndex, this.useNumbers, this.postfixStr, this.ext,
          this.master⟩
      · exact ⟨rfl, rfl, rfl, rfl, rfl, rfl, rfl⟩
    · exact .refl s

/-! ## C12: the geometry cannot change while writing -/

theorem changeGeom_writing (s : State) (h : s.writing = true) (a b : Nat) (g : Geom) :
    changeGeom s a b g = (s, if a = b then .ok else .threw) := by
  unfold changeGeom
  split <;> simp_all

/-- A setting processed while writing leaves everything of the running acquisition alone. -/
theorem applySetting_writing (s : State) (x : Setting) (h : s.writing = true) :
    (applySetting s x).1.writing = true ∧ (applySetting s x).1.geom = s.geom ∧
    (applySetting s x).1.cur = s.cur ∧ (applySetting s x).1.disks = s.disks ∧
    (applySetting s x).1.timeoutActive = s.timeoutActive := by
  cases x <;> simp only [applySetting, changeGeom_writing s h, requestTimeout] <;> (repeat' split) <;>
    simp [h]

theorem configure_writing (xs : List Setting) : ∀ s : State, s.writing = true →
    (configure s xs).1.writing = true ∧ (configure s xs).1.geom = s.geom ∧
    (configure s xs).1.cur = s.cur ∧ (configure s xs).1.disks = s.disks ∧
    (configure s xs).1.timeoutActive = s.timeoutActive := by
  induction xs with
  | nil => intro s h; exact ⟨h, rfl, rfl, rfl, rfl⟩
  | cons x xs ih =>
    intro s h
    have h1 := applySetting_writing s x h
    unfold configure
    cases hx : applySetting s x with
    | mk s' o =>
      rw [hx] at h1
      obtain ⟨k1, k2, k3, k4, k5⟩ := h1
      cases o with
      | ok =>
        obtain ⟨j1, j2, j3, j4, j5⟩ := ih s' k1
        exact ⟨j1, j2.trans k2, j3.trans k3, j4.trans k4, j5.trans k5⟩
      | threw => exact ⟨k1, k2, k3, k4, k5⟩
      | ub => exact ⟨k1, k2, k3, k4, k5⟩

/-- C12: while an acquisition is being written no operation whatsoever, in particular no configuration
message, changes the process geometry of the plugin. -/
theorem C12_geometry_fixed (s : State) (o : Op) (h : s.writing = true) : (step s o).1.geom = s.geom := by
  cases o with
  | config xs => exact (configure_writing xs s h).2.1
  | _ => exact (step_settings s _ (by intro xs; simp)).geom

/-- A setting of the geometry and the value it conflicts with. -/
def Spec.Conflicts (g : Geom) : Setting → Prop
  | .number n => n ≠ g.procs
  | .rank n => n ≠ g.rank
  | .fpb n => n ≠ g.fpb
  | .bpf n => n ≠ g.bpf
  | _ => False

/-- C12: a message with a conflicting value is rejected with an error while writing. -/
theorem C12_conflict_refused (xs : List Setting) : ∀ (s : State), s.writing = true →
    (∃ x ∈ xs, Spec.Conflicts s.geom x) → (configure s xs).2 ≠ .ok := by
  induction xs with
  | nil => intro s _ h; simp at h
  | cons x xs ih =>
    intro s h hc
    have h1 := applySetting_writing s x h
    unfold configure
    cases hx : applySetting s x with
    | mk s' o =>
      rw [hx] at h1
      obtain ⟨k1, k2, -⟩ := h1
      cases o with
      | ok =>
        refine ih s' k1 ?_
        obtain ⟨y, hy, hyc⟩ := hc
        rcases List.mem_cons.1 hy with rfl | hy
        · exfalso
          cases y <;> simp only [Spec.Conflicts] at hyc <;>
            simp only [applySetting, changeGeom_writing s h] at hx
          · simp [Ne.symm hyc] at hx
          · simp [Ne.symm hyc] at hx
          · split at hx <;> simp [Ne.symm hyc] at hx
          · simp [Ne.symm hyc] at hx
        · exact ⟨y, hy, by simp only at k2; rw [k2]; exact hyc⟩
      | threw => simp
      | ub => simp

/-- The acquisition being written uses the geometry of the plugin, and its files are those in its
directory. -/
def Agrees (s : State) : Prop :=
  s.writing = true → s.cur.acq.geom = s.geom ∧ s.disks s.cur.path = s.cur.acq.disk

theorem stopWriting_agrees (s : State) : Agrees (stopWriting s) := by
  intro h; rw [stopWriting_idle] at h; simp at h

theorem startWriting_agrees (e : Env) (s : State) (h : s.writing = false) :
    Agrees (startWriting e s).1 := by
  rcases startWriting_idle e s h with h1 | ⟨a, h1, h2⟩
  · intro h; rw [h1] at h; simp at h
  · intro _
    rw [h2]
    exact ⟨(start_inv e _ a rfl h1).2.1.geom, by simp [State.setAcq]⟩

theorem stopAcq_agrees (e : Env) (s : State) : Agrees (stopAcq e s).1 := by
  have h1 := stopWriting_agrees s
  have h2 := startWriting_agrees e _ (stopWriting_idle s)
  unfold stopAcq
  dsimp only
  split
  · split
    · exact h1
    · cases hs : startWriting e (stopWriting s) with
      | mk s2 o =>
        rw [hs] at h2
        cases o <;> exact h2
  · exact h1

theorem frameInAcquisition_agrees (e : Env) (s : State) (id) (h : Agrees s) :
    Agrees (frameInAcquisition e s id).1 := by
  unfold frameInAcquisition
  split
  · exact h
  · split
    · exact h
    · split
      · exact startWriting_agrees e _ (stopWriting_idle s)
      · exact h

theorem applySetting_agrees (s : State) (x : Setting) (h : Agrees s) :
    Agrees (applySetting s x).1 := by
  by_cases hw : s.writing = true
  · obtain ⟨k1, k2, k3, k4, _⟩ := applySetting_writing s x hw
    intro _
    rw [k2, k3, k4]; exact h hw
  · have : (applySetting s x).1.writing = s.writing := by
      cases x <;> simp only [applySetting, changeGeom, requestTimeout] <;> repeat' split
      all_goals rfl
    intro h'; rw [this] at h'; exact absurd h' hw

theorem configure_agrees (xs : List Setting) : ∀ s, Agrees s → Agrees (configure s xs).1 := by
  induction xs with
  | nil => intro s h; exact h
  | cons x xs ih =>
    intro s h
    have h1 := applySetting_agrees s x h
    unfold configure
    cases hx : applySetting s x with
    | mk s' o =>
      rw [hx] at h1
      cases o
      · exact ih s' h1
      · exact h1
      · exact h1

theorem step_agrees (s : State) (o : Op) (h : Agrees s) : Agrees (step s o).1 := by
  cases o with
  | config xs => exact configure_agrees xs s h
  | start e =>
    simp only [step]
    unfold executeStart
    split
    · split
      · exact h
      · rename_i hw; intro h'; exact absurd h' hw
    · by_cases hw : s.writing = true
      · unfold startWriting; rw [if_pos hw]; exact h
      · exact startWriting_agrees e s (by simpa using hw)
  | stop => exact stopWriting_agrees s
  | frame e id f =>
    have h0 := frameInAcquisition_agrees e s id h
    simp only [step]
    apply processFrame_cases e s id f (fun t _ => Agrees t)
    · intro s1 b o hin; rw [hin] at h0; exact h0
    · intro s1 hin hw
      rw [hin] at h0
      have key : ∀ a st, Acq.processFrame s1.cur.env s1.cur.acq f = (a, st) → Agrees (s1.setAcq a) := by
        intro a st hp _
        have := (processFrame_cfg s1.cur.env s1.cur.acq f).geom
        rw [hp] at this
        exact ⟨this.trans (h0 hw).1, by simp [State.setAcq]⟩
      refine ⟨fun a _ => stopAcq_agrees e _, fun a hp => ?_, fun a hp => key a _ hp,
        fun a st _ hp => key a st hp⟩
      have := key a _ hp
      unfold requestTimeout
      split <;> exact this
  | endOfAcquisition e =>
    simp only [step]
    split
    · exact stopAcq_agrees e s
    · exact h
  | timerStarts =>
    simp only [step]
    split <;> exact h
  | timerNotified => exact h
  | timerExpires e =>
    simp only [step]
    split
    · split
      · exact stopAcq_agrees e s
      · exact h
    · exact h

theorem run_agrees (ops : List Op) : ∀ s : State, Agrees s → Agrees (run s ops).1 := by
  induction ops with
  | nil => intro s h; exact h
  | cons o os ih => intro s h; exact ih _ (step_agrees s o h)

theorem init_agrees (e : Env) (b : Bool) (d : String → Disk) : Agrees (init e b d) := by
  intro h; simp [init] at h

/-- C12 over whole histories: at any time, the acquisition being written has the geometry of the plugin,
which is the geometry it was started with (`C12_geometry_fixed`). -/
theorem C12_history (e : Env) (b : Bool) (d : String → Disk) (ops : List Op) :
    (run (init e b d) ops).1.writing = true →
    (run (init e b d) ops).1.cur.acq.geom = (run (init e b d) ops).1.geom :=
  fun h => (run_agrees ops _ (init_agrees e b d) h).1

/-! ## C13: accepted process configurations -/

/-- C13, full statement: from a state that is safe to run (no zero divisor), every accepted message leads
to one. -/
def C13_statement : Prop :=
  ∀ (s : State) (xs : List Setting), s.geom.procs ≠ 0 → s.geom.fpb ≠ 0 → (configure s xs).2 = .ok →
    (configure s xs).1.geom.procs ≠ 0 ∧ (configure s xs).1.geom.fpb ≠ 0

/-- C13 is false of the code: `number = 0` is accepted. -/
theorem C13_violated : ¬ C13_statement := by
  intro h
  have := h (init okEnv false (fun _ _ => none)) [.number 0] (by decide) (by decide) rfl
  exact this.1 rfl

/-- ... and the next message with a frame count divides by zero. -/
theorem C13_zero_processes_ub (e : Env) (b : Bool) (d : String → Disk) :
    (run (init e b d) [.config [.number 0], .config [.frames 10]]).2.map FrameResult.outcome
      = [.ok, .ub] := rfl

/-- Settings that cannot lead to undefined behaviour: a number of processes other than 0, numbers of less than 32 bits (so
that products have less than 64), and dataset descriptions with dimensions or a non-empty chunk list. -/
def Spec.Sane : Setting → Prop
  | .number n => n ≠ 0 ∧ n < 4294967296
  | .rank n => n < 4294967296
  | .fpb n => n < 4294967296
  | .bpf n => n < 4294967296
  | .dataset _ c => c.chunks ≠ some [] ∧ (c.chunks = none → c.dims ≠ none)
  | _ => True

/-- The other parameters of the geometry. -/
def SmallBlocks (g : Geom) : Prop := g.fpb ≠ 0 ∧ g.fpb < 4294967296 ∧ g.bpf < 4294967296 ∧ g.rank < 4294967296

/-- No zero divisor, no products of more than 64 bits, no dataset without chunks, and what is being written was started properly. -/
structure Safe (s : State) : Prop where
  procs : s.geom.procs ≠ 0 ∧ s.geom.procs < 4294967296
  fpb : SmallBlocks s.geom
  chunks : ∀ d ∈ s.defs, d.chunks ≠ []
  agrees : Agrees s
  reach : s.writing = true → Reachable s.cur.env s.cur.acq

theorem Safe.notBad {s : State} (h : Safe s) : s.geom.bad = false :=
  not_bad_small s.geom h.procs.1 h.fpb.1 h.procs.2 h.fpb.2.1 h.fpb.2.2.1 h.fpb.2.2.2

theorem DsetCfg.apply_chunks (c : DsetCfg) (d : DatasetDef) (h : Spec.Sane (.dataset d.name c)) :
    (c.apply d).chunks ≠ [] := by
  obtain ⟨h1, h2⟩ := h
  unfold DsetCfg.apply
  cases hc : c.chunks with
  | none =>
    cases hd : c.dims with
    | none => exact absurd hd (h2 hc)
    | some l => cases c.dataType <;> cases c.compression <;> simp
  | some l =>
    have : l ≠ [] := by rintro rfl; exact h1 hc
    cases c.dataType <;> cases c.dims <;> cases c.compression <;> simp [this]

theorem configureDataset_chunks (defs : List DatasetDef) (name : String) (c : DsetCfg)
    (h : ∀ d ∈ defs, d.chunks ≠ []) (hc : Spec.Sane (.dataset name c)) :
    ∀ d ∈ configureDataset defs name c, d.chunks ≠ [] := by
  intro d hd
  unfold configureDataset at hd
  obtain ⟨x, hx, rfl⟩ := List.mem_map.1 hd
  split
  · exact DsetCfg.apply_chunks c x hc
  · rename_i hne
    unfold createNewDataset at hx
    split at hx
    · exact h x hx
    · rcases List.mem_append.1 hx with hx | hx
      · exact h x hx
      · simp at hx; subst hx; exact absurd rfl hne

theorem startWriting_safe (e : Env) (s : State) (h : Safe s) (hw : s.writing = false) :
    Safe (startWriting e s).1 ∧ (startWriting e s).2 ≠ .ub := by
  have hs := startWriting_settings e s
  refine ⟨⟨by rw [hs.geom]; exact h.procs, by rw [hs.geom]; exact h.fpb, by rw [hs.defs]; exact h.chunks,
    startWriting_agrees e s hw, ?_⟩, ?_⟩
  · rcases startWriting_idle e s hw with h1 | ⟨a, h1, h2⟩
    · intro h'; rw [h1] at h'; simp at h'
    · intro _
      rw [h2]
      exact .start _ _ _ _ _ _ a h1
  · unfold startWriting
    rw [if_neg (by rw [hw]; simp), if_neg (by rw [h.notBad]; simp)]
    have hnub : ∀ a, startAcquisition e s.nextAcq ≠ some (a, .ub) := by
      intro a hst
      unfold startAcquisition at hst
      split at hst
      · simp at hst
      · have h1 := Option.some.inj hst
        have := createFile_not_ub e (s.nextAcq.publish .start) s.nextAcq.geom.rank h.procs.1 h.chunks
        rw [h1] at this
        exact this rfl
    cases hst : startAcquisition e s.nextAcq with
    | none => simp
    | some r =>
      obtain ⟨a, o⟩ := r
      cases o with
      | ok => simp
      | threw => simp
      | ub => exact absurd hst (hnub a)

theorem stopWriting_safe (s : State) (h : Safe s) : Safe (stopWriting s) := by
  have hs := stopWriting_settings s
  exact ⟨by rw [hs.geom]; exact h.procs, by rw [hs.geom]; exact h.fpb, by rw [hs.defs]; exact h.chunks,
    stopWriting_agrees s, by intro h'; rw [stopWriting_idle] at h'; simp at h'⟩

theorem stopAcq_safe (e : Env) (s : State) (h : Safe s) : Safe (stopAcq e s).1 ∧ (stopAcq e s).2 ≠ .ub := by
  have h1 := stopWriting_safe s h
  have h2 := startWriting_safe e _ h1 (stopWriting_idle s)
  unfold stopAcq
  dsimp only
  split
  · split
    · exact ⟨⟨h1.procs, h1.fpb, h1.chunks, h1.agrees, h1.reach⟩, by simp⟩
    · cases hs : startWriting e (stopWriting s) with
      | mk s2 o =>
        rw [hs] at h2
        obtain ⟨h3, h4⟩ := h2
        cases o with
        | ok => exact ⟨⟨h3.procs, h3.fpb, h3.chunks, h3.agrees, h3.reach⟩, by simp⟩
        | threw => exact ⟨h3, by simp⟩
        | ub => exact absurd rfl h4
  · exact ⟨⟨h1.procs, h1.fpb, h1.chunks, h1.agrees, h1.reach⟩, by simp⟩

theorem frameInAcquisition_safe (e : Env) (s : State) (id) (h : Safe s) :
    Safe (frameInAcquisition e s id).1 ∧ (frameInAcquisition e s id).2.2 ≠ .ub := by
  unfold frameInAcquisition
  split
  · exact ⟨h, by simp⟩
  · split
    · exact ⟨h, by simp⟩
    · split
      · exact startWriting_safe e _ (stopWriting_safe s h) (stopWriting_idle s)
      · exact ⟨h, by simp⟩

theorem applySetting_safe (s : State) (x : Setting) (h : Safe s) (hx : Spec.Sane x) :
    Safe (applySetting s x).1 ∧ (applySetting s x).2 ≠ .ub := by
  have ha := applySetting_agrees s x h.agrees
  have hr : (applySetting s x).1.writing = true → Reachable (applySetting s x).1.cur.env
      (applySetting s x).1.cur.acq := by
    intro hw'
    have hw : s.writing = true := by
      have : (applySetting s x).1.writing = s.writing := by
        cases x <;> simp only [applySetting, changeGeom, requestTimeout] <;> repeat' split
        all_goals rfl
      rw [← this]; exact hw'
    rw [(applySetting_writing s x hw).2.2.1]
    exact h.reach hw
  have hz := h.notBad
  obtain ⟨h1, h2, h3, _, _⟩ := h
  cases x with
  | number n =>
    simp only [applySetting, changeGeom] at ha hr ⊢
    split
    · exact ⟨⟨h1, h2, h3, by simpa [*] using ha, by simpa [*] using hr⟩, by simp⟩
    · split
      · exact ⟨⟨h1, h2, h3, by simpa [*] using ha, by simpa [*] using hr⟩, by simp⟩
      · rename_i n1 n2
        rw [if_neg n1, if_neg n2] at ha hr
        exact ⟨⟨hx, h2, h3, ha, hr⟩, by simp⟩
  | rank n =>
    simp only [applySetting, changeGeom] at ha hr ⊢
    split
    · exact ⟨⟨h1, h2, h3, by simpa [*] using ha, by simpa [*] using hr⟩, by simp⟩
    · split
      · exact ⟨⟨h1, h2, h3, by simpa [*] using ha, by simpa [*] using hr⟩, by simp⟩
      · rename_i n1 n2
        rw [if_neg n1, if_neg n2] at ha hr
        exact ⟨⟨h1, ⟨h2.1, h2.2.1, h2.2.2.1, hx⟩, h3, ha, hr⟩, by simp⟩
  | bpf n =>
    simp only [applySetting, changeGeom] at ha hr ⊢
    split
    · exact ⟨⟨h1, h2, h3, by simpa [*] using ha, by simpa [*] using hr⟩, by simp⟩
    · split
      · exact ⟨⟨h1, h2, h3, by simpa [*] using ha, by simpa [*] using hr⟩, by simp⟩
      · rename_i n1 n2
        rw [if_neg n1, if_neg n2] at ha hr
        exact ⟨⟨h1, ⟨h2.1, h2.2.1, hx, h2.2.2.2⟩, h3, ha, hr⟩, by simp⟩
  | fpb n =>
    simp only [applySetting, changeGeom] at ha hr ⊢
    split
    · rename_i n0
      rw [if_pos n0] at ha hr
      exact ⟨⟨h1, h2, h3, ha, hr⟩, by simp⟩
    · rename_i n0
      rw [if_neg n0] at ha hr
      split
      · exact ⟨⟨h1, h2, h3, by simpa [*] using ha, by simpa [*] using hr⟩, by simp⟩
      · split
        · exact ⟨⟨h1, h2, h3, by simpa [*] using ha, by simpa [*] using hr⟩, by simp⟩
        · rename_i n1 n2
          rw [if_neg n1, if_neg n2] at ha hr
          exact ⟨⟨h1, ⟨by simp only; omega, hx, h2.2.2.1, h2.2.2.2⟩, h3, ha, hr⟩, by simp⟩
  | dataset name c =>
    exact ⟨⟨h1, h2, configureDataset_chunks s.defs name c h3 hx, ha, hr⟩, by simp [applySetting]⟩
  | frames n =>
    simp only [applySetting] at ha hr ⊢
    rw [if_neg (by rw [hz]; simp)] at ha hr ⊢
    exact ⟨⟨h1, h2, h3, ha, hr⟩, by simp⟩
  | deleteDatasets => exact ⟨⟨h1, h2, by simp [applySetting], ha, hr⟩, by simp [applySetting]⟩
  | path p u =>
    refine ⟨⟨?_, ?_, ?_, ha, hr⟩, by simp [applySetting]⟩ <;> simp only [applySetting] <;>
      split <;> assumption
  | startTimeout b =>
    refine ⟨⟨?_, ?_, ?_, ha, hr⟩, by simp [applySetting]⟩ <;> simp only [applySetting, requestTimeout] <;>
      (repeat' split) <;> assumption
  | _ => exact ⟨⟨h1, h2, h3, ha, hr⟩, by simp [applySetting]⟩

theorem configure_safe (xs : List Setting) : ∀ s, Safe s → (∀ x ∈ xs, Spec.Sane x) →
    Safe (configure s xs).1 ∧ (configure s xs).2 ≠ .ub := by
  induction xs with
  | nil => intro s h _; exact ⟨h, by simp [configure]⟩
  | cons x xs ih =>
    intro s h hx
    have h1 := applySetting_safe s x h (hx x (by simp))
    unfold configure
    cases hs : applySetting s x with
    | mk s' o =>
      rw [hs] at h1
      cases o with
      | ok => exact ih s' h1.1 (fun y hy => hx y (by simp [hy]))
      | threw => exact ⟨h1.1, by simp⟩
      | ub => exact absurd rfl h1.2

/-- What a history may contain: only sane settings in its messages. -/
def Spec.SaneOp : Op → Prop
  | .config xs => ∀ x ∈ xs, Spec.Sane x
  | _ => True

theorem step_safe (s : State) (o : Op) (h : Safe s) (ho : Spec.SaneOp o) :
    Safe (step s o).1 ∧ (step s o).2.outcome ≠ .ub := by
  cases o with
  | config xs => exact configure_safe xs s h ho
  | start e =>
    simp only [step]
    unfold executeStart
    split
    · split
      · exact ⟨⟨h.procs, h.fpb, h.chunks, h.agrees, h.reach⟩, by simp⟩
      · rename_i hw
        exact ⟨⟨h.procs, h.fpb, h.chunks, fun h' => absurd h' hw, fun h' => absurd h' hw⟩, by simp⟩
    · by_cases hw : s.writing = true
      · unfold startWriting; rw [if_pos hw]; exact ⟨h, by simp⟩
      · exact startWriting_safe e s h (by simpa using hw)
  | stop => exact ⟨stopWriting_safe s h, by simp [step]⟩
  | frame e id f =>
    have h0 := frameInAcquisition_safe e s id h
    simp only [step]
    apply processFrame_cases e s id f (fun t r => Safe t ∧ r.outcome ≠ .ub)
    · intro s1 b o hin; rw [hin] at h0; exact h0
    · intro s1 hin hw
      rw [hin] at h0
      have hs1 := h0.1
      have hg := (hs1.agrees hw).1
      simp only at hg
      have hnub := C53_no_ub_partial s1.cur.env s1.cur.acq f (hs1.reach hw) (by rw [hg]; exact hs1.notBad)
      have key : ∀ a st, Acq.processFrame s1.cur.env s1.cur.acq f = (a, st) → Safe (s1.setAcq a) := by
        intro a st hp
        have hc := (processFrame_cfg s1.cur.env s1.cur.acq f).geom
        have hr := Reachable.frame s1.cur.acq f (hs1.reach hw) hnub
        rw [hp] at hc hr
        exact ⟨hs1.procs, hs1.fpb, hs1.chunks, fun _ => ⟨hc.trans hg, by simp [State.setAcq]⟩, fun _ => hr⟩
      refine ⟨fun a hp => stopAcq_safe e _ (key a _ hp), fun a hp => ?_, fun a hp => ?_,
        fun a st _ hp => ⟨key a st hp, by simp⟩⟩
      · have := key a _ hp
        refine ⟨?_, by simp⟩
        unfold requestTimeout
        split
        · exact this
        · exact ⟨this.procs, this.fpb, this.chunks, this.agrees, this.reach⟩
      · rw [hp] at hnub; exact absurd rfl hnub
  | endOfAcquisition e =>
    simp only [step]
    split
    · exact stopAcq_safe e s h
    · exact ⟨h, by simp⟩
  | timerNotified => exact ⟨⟨h.procs, h.fpb, h.chunks, h.agrees, h.reach⟩, by simp [step]⟩
  | timerStarts =>
    simp only [step]
    split
    · exact ⟨⟨h.procs, h.fpb, h.chunks, h.agrees, h.reach⟩, by simp⟩
    · exact ⟨h, by simp⟩
  | timerExpires e =>
    simp only [step]
    split
    · split
      · obtain ⟨k, k2⟩ := stopAcq_safe e s h
        exact ⟨⟨k.procs, k.fpb, k.chunks, k.agrees, k.reach⟩, k2⟩
      · exact ⟨⟨h.procs, h.fpb, h.chunks, h.agrees, h.reach⟩, by simp⟩
    · exact ⟨h, by simp⟩

/-- C13 with the missing checks added to the messages: if no message sets the number of processes to 0
or a number of 32 bits or more, and no message describes a dataset without chunks, then no history of messages, commands, frames and
timeouts ever divides by zero (or runs into any other undefined behaviour of the model). Missing from the
full claim: those kinds of messages, which the plugin accepts. -/
theorem C13_partial (e : Env) (b : Bool) (d : String → Disk) (ops : List Op)
    (h : ∀ o ∈ ops, Spec.SaneOp o) : ∀ r ∈ (run (init e b d) ops).2, r.outcome ≠ .ub := by
  have : ∀ (ops : List Op) (s : State), Safe s → (∀ o ∈ ops, Spec.SaneOp o) →
      ∀ r ∈ (run s ops).2, r.outcome ≠ .ub := by
    intro ops
    induction ops with
    | nil => intro s _ _ r hr; simp [run] at hr
    | cons o os ih =>
      intro s hs ho r hr
      obtain ⟨k1, k2⟩ := step_safe s o hs (ho o (by simp))
      simp only [run, List.mem_cons] at hr
      rcases hr with rfl | hr
      · exact k2
      · exact ih _ k1 (fun o' h' => ho o' (by simp [h'])) r hr
  exact this ops _ ⟨⟨by simp [init], by simp [init]⟩, ⟨by simp [init], by simp [init], by simp [init], by simp [init]⟩, by simp [init], by intro h; simp [init] at h,
    by intro h; simp [init] at h⟩ h

/-! ## C14: frames of another acquisition -/

/-- C14: while writing, a frame with the id of neither the current nor the next acquisition changes
nothing at all (apart from an entry in the error log) and is not passed on. The same when not writing. -/
theorem C14_foreign_untouched (e : Env) (s : State) (id : List Char) (f : Frame) (h : id ≠ [])
    (hc : s.writing = true → id ≠ s.cur.id) (hn : id ≠ s.next.acqId) :
    step s (.frame e id f) = (s, {}) := by
  simp only [step]
  unfold processFrame frameInAcquisition
  rw [if_neg h, if_neg (by rintro ⟨h1, h2⟩; exact hc h1 h2), if_neg hn]

/-- C14: a frame that carries an id is only ever handed to an acquisition with that id. -/
theorem C14_written_into_own (s : State) (e : Env) (id : List Char) (f : Frame) (h : id ≠ [])
    (t : List Char) (ht : (step s (.frame e id f)).2.into = some t) : t = id := by
  simp only [step] at ht
  have hin : ∀ s1, frameInAcquisition e s id = (s1, true, .ok) → s1.writing = true → s1.cur.id = id := by
    intro s1 hs hw
    unfold frameInAcquisition at hs
    rw [if_neg h] at hs
    split at hs
    · rename_i hc
      simp at hs
      rw [← hs]; exact hc.2.symm
    · split at hs
      · rename_i hn
        have hs' : startWriting e (stopWriting s) = (s1, .ok) := by
          generalize startWriting e (stopWriting s) = p at hs
          obtain ⟨p1, p2⟩ := p
          simp at hs
          rw [hs.1, hs.2]
        rcases startWriting_idle e _ (stopWriting_idle s) with h1 | ⟨a, h1, h2⟩
        · rw [hs'] at h1; simp only at h1; rw [h1] at hw; simp at hw
        · rw [h2] at hs'
          have : s1 = { ((stopWriting s).swap e).setAcq a with writing := true } := by simp at hs'; exact hs'.symm
          rw [this]
          have hnm := (start_inv e _ a rfl h1).2.1.naming
          show a.naming.acqId = id
          rw [hnm]
          show (stopWriting s).next.acqId = id
          rw [stopWriting_next]; exact hn.symm
      · simp at hs
  revert ht
  apply processFrame_cases e s id f (fun _ r => r.into = some t → t = id)
  · intro s1 b o _ h'; simp at h'
  · intro s1 hs hw
    have := hin s1 hs hw
    refine ⟨fun a _ h' => ?_, fun a _ h' => ?_, fun a _ h' => ?_, fun a st _ _ h' => ?_⟩ <;>
      (simp at h'; rw [← h', this])

/-- C14: while writing, frames of the current acquisition, and frames without id, go to the current
acquisition, whatever is configured for the next one. -/
theorem C14_own_frames_written (s : State) (e : Env) (id : List Char) (f : Frame) (hw : s.writing = true)
    (h : id = [] ∨ id = s.cur.id) :
    (step s (.frame e id f)).2.into = some s.cur.id ∧
    (step s (.frame e id f)).2.status = some (Acq.processFrame s.cur.env s.cur.acq f).2 := by
  have hin : frameInAcquisition e s id = (s, true, .ok) := by
    unfold frameInAcquisition
    by_cases h0 : id = []
    · rw [if_pos h0]
    · rw [if_neg h0, if_pos ⟨hw, by rcases h with h | h; exact absurd h h0; exact h⟩]
  simp only [step]
  unfold processFrame
  rw [hin]
  dsimp only
  rw [if_pos hw]
  cases Acq.processFrame s.cur.env s.cur.acq f with
  | mk a st => cases st <;> simp

/-- C14: a frame with the id of the next acquisition ends the current one and is written by the next,
provided that one starts. -/
theorem C14_next_switches (s : State) (e : Env) (id : List Char) (f : Frame) (a : Acq) (h : id ≠ [])
    (hc : s.writing = true → id ≠ s.cur.id) (hn : id = s.next.acqId)
    (hz : s.geom.bad = false)
    (hst : startAcquisition e (stopWriting s).nextAcq = some (a, .ok)) :
    (step s (.frame e id f)).2.into = some id ∧
    (step s (.frame e id f)).2.status = some (Acq.processFrame e a f).2 := by
  have hset := stopWriting_settings s
  have hin : frameInAcquisition e s id
      = ({ ((stopWriting s).swap e).setAcq a with writing := true }, true, .ok) := by
    unfold frameInAcquisition
    rw [if_neg h, if_neg (by rintro ⟨h1, h2⟩; exact hc h1 h2), if_pos hn]
    unfold startWriting
    rw [if_neg (by rw [stopWriting_idle]; simp), if_neg (by rw [hset.geom, hz]; simp), hst]
  have hid : a.naming.acqId = id := by
    rw [(start_inv e _ a rfl hst).2.1.naming]
    show (stopWriting s).next.acqId = id
    rw [stopWriting_next]; exact hn.symm
  simp only [step]
  unfold processFrame
  rw [hin]
  dsimp only
  rw [if_pos rfl]
  have hcur : (((stopWriting s).swap e).setAcq a).cur = ⟨e, a, (stopWriting s).next.path⟩ := rfl
  simp only [hcur, Running.id, hid]
  cases Acq.processFrame e a f with
  | mk a' st => cases st <;> simp

/-! ## C15: configuring the next acquisition -/

/-- C15: a message processed while writing leaves the running acquisition, its files and the timeout
alone, whether it is accepted or not. -/
theorem C15_config_keeps_current (s : State) (xs : List Setting) (h : s.writing = true) :
    (step s (.config xs)).1.cur = s.cur ∧ (step s (.config xs)).1.disks = s.disks ∧
    (step s (.config xs)).1.writing = true ∧ (step s (.config xs)).1.timeoutActive = s.timeoutActive := by
  obtain ⟨h1, _, h3, h4, h5⟩ := configure_writing xs s h
  exact ⟨h3, h4, h1, h5⟩

/-- The frames in a history, and whether they belong to the acquisition `id`. -/
def Spec.framesOf (ops : List Op) : List Frame :=
  ops.filterMap (fun | .frame _ _ f => some f | _ => none)

def Spec.OnlyConfigAndOwn (id : List Char) (ops : List Op) : Prop :=
  ∀ o ∈ ops, (∃ xs, o = .config xs) ∨ ∃ e i f, o = .frame e i f ∧ (i = [] ∨ i = id)

/-- C15 for the whole life of an acquisition: interleave the frames of the running acquisition with any
configuration messages whatsoever; as long as no frame completes the acquisition, it evolves exactly as it
would have from its frames alone, and every frame gets the same status. -/
theorem C15_config_does_not_disturb (ops : List Op) : ∀ (s : State), s.writing = true →
    Spec.OnlyConfigAndOwn s.cur.id ops →
    .complete ∉ (Acq.run s.cur.env s.cur.acq (Spec.framesOf ops)).2 →
    .ub ∉ (Acq.run s.cur.env s.cur.acq (Spec.framesOf ops)).2 →
    (run s ops).1.writing = true ∧ (run s ops).1.cur.env = s.cur.env ∧ (run s ops).1.cur.path = s.cur.path ∧
    (run s ops).1.cur.acq = (Acq.run s.cur.env s.cur.acq (Spec.framesOf ops)).1 ∧
    (run s ops).2.filterMap FrameResult.status = (Acq.run s.cur.env s.cur.acq (Spec.framesOf ops)).2 := by
  induction ops with
  | nil => intro s h _ _ _; exact ⟨h, rfl, rfl, rfl, rfl⟩
  | cons o os ih =>
    intro s hw ho hc hu
    have hos : Spec.OnlyConfigAndOwn s.cur.id os := fun x hx => ho x (by simp [hx])
    rcases ho o (by simp) with ⟨xs, rfl⟩ | ⟨e, i, f, rfl, hi⟩
    · obtain ⟨k1, k2, k3, _⟩ := C15_config_keeps_current s xs hw
      have hf : Spec.framesOf (.config xs :: os) = Spec.framesOf os := by simp [Spec.framesOf]
      rw [hf] at hc hu ⊢
      have := ih (step s (.config xs)).1 k3 (by rw [k1]; exact hos) (by rw [k1]; exact hc)
        (by rw [k1]; exact hu)
      rw [k1] at this
      obtain ⟨j1, j2, j3, j4, j5⟩ := this
      refine ⟨j1, j2, j3, j4, ?_⟩
      simp only [run]
      rw [← j5]
      simp [step]
    · have hf : Spec.framesOf (.frame e i f :: os) = f :: Spec.framesOf os := by simp [Spec.framesOf]
      rw [hf] at hc hu ⊢
      simp only [Acq.run] at hc hu ⊢
      have hstep : (step s (.frame e i f)).1.writing = true ∧
          (step s (.frame e i f)).1.cur = { s.cur with acq := (Acq.processFrame s.cur.env s.cur.acq f).1 } ∧
          (step s (.frame e i f)).2.status = some (Acq.processFrame s.cur.env s.cur.acq f).2 := by
        have hst := (C14_own_frames_written s e i f hw hi).2
        refine ⟨?_, ?_, hst⟩
        all_goals
          have hin : frameInAcquisition e s i = (s, true, .ok) := by
            unfold frameInAcquisition
            by_cases h0 : i = []
            · rw [if_pos h0]
            · rw [if_neg h0, if_pos ⟨hw, by rcases hi with h | h; exact absurd h h0; exact h⟩]
          simp only [step]
          unfold processFrame
          rw [hin]
          dsimp only
          rw [if_pos hw]
          cases hp : Acq.processFrame s.cur.env s.cur.acq f with
          | mk a st =>
            rw [hp] at hc hu
            cases st <;> simp [State.setAcq, requestTimeout, hw] at hc hu ⊢
            split <;> simp
      obtain ⟨k1, k2, k3⟩ := hstep
      have hid : (step s (.frame e i f)).1.cur.id = s.cur.id := by
        rw [k2]
        have := (processFrame_cfg s.cur.env s.cur.acq f).naming
        simp [Running.id, this]
      simp only [List.mem_cons, not_or] at hc hu
      have := ih (step s (.frame e i f)).1 k1 (by rw [hid]; exact hos) (by rw [k2]; exact hc.2)
        (by rw [k2]; exact hu.2)
      rw [k2] at this
      obtain ⟨j1, j2, j3, j4, j5⟩ := this
      refine ⟨j1, j2, j3, j4, ?_⟩
      simp only [run]
      rw [List.filterMap_cons, k3, j5]

/-! ## Examples -/

/-- A plugin after a typical configuration, writing. -/
def exPlugin : State :=
  (run (init okEnv false (fun _ _ => none))
    [.config [.number 2, .rank 1, .fpb 1, .bpf 4, .path "/data" true, .filename ['r'],
      .dataset "data" { dataType := some .raw16, dims := some [2, 3], compression := some .none },
      .frames 8, .acqId ['A']],
     .start okEnv]).1

/-- Non-vacuity of C12, C14 and C15: the plugin is writing, conflicting messages are refused, equal
values and settings for the next acquisition are accepted. -/
example : exPlugin.writing = true ∧ exPlugin.cur.id = ['A'] ∧
    (configure exPlugin [.number 2, .rank 1, .acqId ['B'], .filename ['r']]).2 = .ok ∧
    (configure exPlugin [.number 3]).2 = .threw ∧ (configure exPlugin [.fpb 0]).2 = .threw := by
  decide +kernel

/-- Non-vacuity of C14 and C15: foreign frames are ignored, a frame of the next acquisition switches. -/
example :
    let ops : List Op := [.frame okEnv ['A'] (exFrame 1 11), .config [.acqId ['B'], .path "/data" true],
      .frame okEnv ['X'] (exFrame 3 12), .frame okEnv ['A'] (exFrame 3 13),
      .frame okEnv ['B'] (exFrame 1 14)]
    (run exPlugin ops).2.map FrameResult.into = [some ['A'], none, none, some ['A'], some ['B']] ∧
    (run exPlugin ops).2.map FrameResult.status = [some .ok, none, none, some .ok, some .ok] := by
  decide +kernel

/-- Non-vacuity of C13: the messages of `exPlugin` are sane. -/
example : Spec.SaneOp (.config [.number 2, .dataset "data" { dims := some [2, 3] }, .frames 8]) := by
  intro x hx
  simp at hx
  rcases hx with rfl | rfl | rfl <;> simp [Spec.Sane]

end Verif.FW
