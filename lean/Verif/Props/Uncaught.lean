import Verif.Props.FileWriter
/-! Property C129: no exception of the file writer leaves the thread it runs in.

`process_frame` and `process_end_of_acquisition` run in the worker thread of the plugin (IFrameCallback.cpp:114-128 and
FrameProcessorPlugin.cpp:356-376), `stop_acquisition` also in the timeout thread (FileWriterPlugin.cpp:916-941). None of
them has a handler, so an exception there ends the process (`std::terminate`). Messages and commands are handled under a
handler in the controller and are refused instead. In the model an exception is the outcome `threw`. -/
namespace Verif.FW
open Verif.Placement Verif.Acq

namespace Spec

/-- The operation runs in a thread without a handler for exceptions. -/
def InThread : Op → Prop
  | .frame .. => True
  | .endOfAcquisition _ => True
  | .timerExpires _ => True
  | _ => False

/-- HDF5 creates every file and dataset it is asked for at the start of an acquisition in this operation. -/
def Creates : Op → Prop
  | .frame e _ _ => e.create 0 = .ok
  | .endOfAcquisition e => e.create 0 = .ok
  | .timerExpires e => e.create 0 = .ok
  | .start e => e.create 0 = .ok
  | _ => True

/-- A dataset that can be created: one chunk size per dimension and one for the frames, nothing zero. -/
def Creatable (dims chunks : List Nat) : Prop :=
  chunks.length = dims.length + 1 ∧ (∀ n ∈ dims, n ≠ 0) ∧ (∀ n ∈ chunks, n ≠ 0)

/-- A setting that keeps the processes as they are, describes datasets that can be created, and asks for acquisitions
that are endless or of which this process gets at least one frame. -/
def Calm (g : Geom) : Setting → Prop
  | .number n => n = g.procs
  | .rank n => n = g.rank
  | .fpb n => n = g.fpb
  | .bpf n => n * g.fpb < 2 ^ 64
  | .dataset _ c => ∃ l, c.dims = some l ∧ Creatable l (c.chunks.getD (1 :: l))
  | .frames n => n = 0 ∨ 0 < calcNumFrames g n
  | _ => True

def CalmOp (g : Geom) : Op → Prop
  | .config xs => ∀ x ∈ xs, Calm g x
  | _ => True

end Spec
open Spec

/-- C129, full statement: whatever happened before, no frame, end of acquisition or timeout ends in an exception. -/
def C129_statement : Prop :=
  ∀ (e : Env) (b : Bool) (d : String → Disk) (ops : List Op) (o : Op), InThread o →
    (step (run (init e b d) ops).1 o).2.outcome ≠ .threw

/-- A library that cannot create the file (the directory was removed, the disk is full). -/
def noFileEnv : Env := { create := fun _ => .noFile, edge := false }

/-- C129 is false of the code: the running acquisition ends with its last frame and the file of the next one, which was
configured meanwhile, cannot be created. -/
theorem C129_violated : ¬ C129_statement := by
  intro h
  refine h okEnv false (fun _ _ => none)
    [.config [.path "/data" true, .filename ['r'],
      .dataset "data" { dataType := some .raw16, dims := some [2, 3], compression := some .none }, .frames 1],
     .start okEnv, .config [.filename ['s'], .frames 1]]
    (.frame noFileEnv [] (exFrame 0 1)) trivial ?_
  decide +kernel

/-- Even if HDF5 never fails: the first frame of the next acquisition stops the current one and starts its own. If that
acquisition has no frames for this process (here rank 1 of 2 and one frame in all) no dataset of that size can be made. -/
theorem C129_violated_rank :
    (step (run (init okEnv false (fun _ _ => none))
      [.config [.number 2, .rank 1, .path "/data" true, .filename ['r'],
        .dataset "data" { dataType := some .raw16, dims := some [2, 3], compression := some .none }, .frames 8],
       .start okEnv, .config [.acqId ['B'], .frames 1]]).1 (.frame okEnv ['B'] (exFrame 0 1))).2.outcome = .threw := by
  decide +kernel

/-- ... or the next acquisition is started by the timeout thread, with a dataset whose dimensions are refused only now. -/
theorem C129_violated_timeout :
    (step (run (init okEnv false (fun _ _ => none))
      [.config [.path "/data" true, .filename ['r'],
        .dataset "data" { dataType := some .raw16, dims := some [2, 3], compression := some .none }, .frames 8],
       .start okEnv, .config [.filename ['s'], .frames 8, .dataset "data" { dims := some [2, 0] }, .startTimeout true],
       .timerStarts]).1 (.timerExpires okEnv)).2.outcome = .threw := by
  decide +kernel

/-- At least one process, a rank among the processes, at least one frame per block, and the frames of one round of blocks
can be counted in 64 bits. -/
def Spec.Proper (g : Geom) : Prop := g.rank < g.procs ∧ g.fpb ≠ 0 ∧ g.fpb * g.procs < 2 ^ 64

/-- The next acquisition can be started. -/
structure Spec.Ready (g : Geom) (s : State) : Prop where
  geom : s.geom.rank = g.rank ∧ s.geom.procs = g.procs ∧ s.geom.fpb = g.fpb ∧ s.geom.bpf * g.fpb < 2 ^ 64
  defs : ∀ d ∈ s.defs, Creatable d.dims d.chunks
  total : s.next.total = 0 ∨ 0 < calcNumFrames g s.next.total

theorem calcNumFrames_geom (g k : Geom) (h : k.rank = g.rank ∧ k.procs = g.procs ∧ k.fpb = g.fpb) (n : Nat) :
    calcNumFrames k n = calcNumFrames g n := by
  unfold calcNumFrames; rw [h.1, h.2.1, h.2.2]

theorem createDatasets_ok (g : Geom) (hg : Proper g) (ftw : Nat) (ds : List DatasetDef) : ∀ (file : H5File),
    (file.unlimited = true ∨ 0 < ftw) → (∀ d ∈ ds, Creatable d.dims d.chunks) →
    (createDatasets g ftw g.rank file ds none).2 = .ok := by
  induction ds with
  | nil => intro file _ _; rfl
  | cons d ds ih =>
    intro file hf hd
    obtain ⟨h1, h2, h3⟩ := hd d (by simp)
    have key : ∃ file', createDataset g ftw g.rank file d = (file', .ok) ∧ file'.unlimited = file.unlimited := by
      unfold createDataset
      cases hc : d.chunks with
      | nil => rw [hc] at h1; simp at h1
      | cons c cs =>
        rw [hc] at h1 h3
        have a1 : (d.dims.any (· == 0) || (c :: cs).any (· == 0)) = false := by
          rw [Bool.or_eq_false_iff]
          constructor
          · rw [List.any_eq_false]; intro x hx; simpa using h2 x hx
          · rw [List.any_eq_false]; intro x hx; simpa using h3 x hx
        dsimp only
        rw [a1, if_neg (by simp), if_neg (by simpa using h1)]
        split
        · exact ⟨_, rfl, rfl⟩
        · rename_i hu
          have hn : datasetFrames g c ftw g.rank ≠ 0 := by
            have hw : 0 < ftw := by
              rcases hf with hf | hf
              · exact absurd hf hu
              · exact hf
            unfold datasetFrames
            dsimp only
            rw [Nat.div_eq_of_lt hg.1]
            split
            · split
              · rw [Nat.mod_eq_of_lt (by omega)]; omega
              · omega
            · omega
          rw [if_neg hn]
          exact ⟨_, rfl, rfl⟩
    obtain ⟨file', k1, k2⟩ := key
    rw [createDatasets, k1]
    · exact ih file' (by rw [k2]; exact hf) (fun x hx => hd x (by simp [hx]))
    · simp

theorem startWriting_ok (g : Geom) (hg : Proper g) (e : Env) (s : State) (h : Ready g s) (he : e.create 0 = .ok) :
    (startWriting e s).2 = .ok := by
  obtain ⟨e1, e2, e3, e4⟩ := h.geom
  have hs : Proper s.geom := ⟨by rw [e1, e2]; exact hg.1, by rw [e3]; exact hg.2.1, by rw [e2, e3]; exact hg.2.2⟩
  have hz : s.geom.bad = false := (Placement.not_bad _).2 ⟨by have := hs.1; omega, hs.2.1, hs.2.2, by rw [e3]; exact e4,
    Nat.lt_of_le_of_lt (by rw [Nat.mul_comm]; exact Nat.mul_le_mul_left _ (Nat.le_of_lt hs.1)) hs.2.2⟩
  unfold startWriting
  split
  · rfl
  · have hp : 0 < s.geom.procs := by have := hs.1; omega
    rw [if_neg (by rw [hz]; simp)]
    unfold startAcquisition
    split
    · rename_i h'; revert h'; split <;> simp
    · rename_i heq
      revert heq; split
      · simp
      · intro heq; simp at heq; rfl
    · rename_i a o hno heq
      revert heq; split
      · simp
      · intro heq
        have heq := Option.some.inj heq
        exfalso
        have : (createFile e (s.nextAcq.publish .start) s.nextAcq.geom.rank).2 = .ok := by
          unfold createFile
          have ha : (s.nextAcq.publish .start).attempts = 0 := rfl
          dsimp only
          rw [ha, he]
          dsimp only
          rw [if_neg (by rintro ⟨h', _⟩; have : s.geom.procs = 0 := h'; omega)]
          show (createDatasets s.geom (calcNumFrames s.geom s.next.total) s.geom.rank _ s.defs none).2 = .ok
          refine createDatasets_ok s.geom hs _ s.defs _ ?_ h.defs
          rcases h.total with h' | h'
          · left; show (s.next.total == 0) = true; simpa using h'
          · right; rw [calcNumFrames_geom g _ ⟨e1, e2, e3⟩]; exact h'
        rw [heq] at this
        exact hno (show o = .ok from this)

/-! ## Nothing but a configuration message makes the next acquisition impossible to start -/

theorem Spec.Ready.of_settings {g : Geom} {s t : State} (h : Ready g s) (k : SameSettings s t)
    (hn : t.next = s.next ∨ t.next = {}) : Ready g t := by
  refine ⟨by rw [k.geom]; exact h.geom, by rw [k.defs]; exact h.defs, ?_⟩
  rcases hn with hn | hn
  · rw [hn]; exact h.total
  · rw [hn]; exact Or.inl rfl

theorem startWriting_next (e : Env) (s : State) :
    (startWriting e s).1.next = s.next ∨ (startWriting e s).1.next = {} := by
  unfold startWriting
  split
  · exact Or.inl rfl
  · split
    · exact Or.inl rfl
    · split <;> exact Or.inr rfl

theorem startWriting_ready {g : Geom} (e : Env) {s : State} (h : Ready g s) : Ready g (startWriting e s).1 :=
  h.of_settings (startWriting_settings e s) (startWriting_next e s)

theorem stopWriting_ready {g : Geom} {s : State} (h : Ready g s) : Ready g (stopWriting s) :=
  h.of_settings (stopWriting_settings s) (Or.inl (stopWriting_next s))

theorem stopAcq_ready {g : Geom} (hg : Proper g) (e : Env) (he : e.create 0 = .ok) {s : State} (h : Ready g s) :
    Ready g (stopAcq e s).1 ∧ (stopAcq e s).2 = .ok := by
  have h1 := stopWriting_ready h
  have h2 := startWriting_ready e h1
  have h3 := startWriting_ok g hg e _ h1 he
  unfold stopAcq
  dsimp only
  split
  · split
    · exact ⟨h1.of_settings ⟨rfl, rfl, rfl, rfl, rfl, rfl, rfl⟩ (Or.inr rfl), rfl⟩
    · cases hs : startWriting e (stopWriting s) with
      | mk s2 o =>
        rw [hs] at h2 h3
        cases h3
        exact ⟨h2.of_settings ⟨rfl, rfl, rfl, rfl, rfl, rfl, rfl⟩ (Or.inl rfl), rfl⟩
  · exact ⟨h1.of_settings ⟨rfl, rfl, rfl, rfl, rfl, rfl, rfl⟩ (Or.inl rfl), rfl⟩

theorem frameInAcquisition_ready {g : Geom} (hg : Proper g) (e : Env) (he : e.create 0 = .ok) {s : State}
    (h : Ready g s) (id : List Char) :
    Ready g (frameInAcquisition e s id).1 ∧ (frameInAcquisition e s id).2.2 = .ok := by
  unfold frameInAcquisition
  split
  · exact ⟨h, rfl⟩
  · split
    · exact ⟨h, rfl⟩
    · split
      · exact ⟨startWriting_ready e (stopWriting_ready h), startWriting_ok g hg e _ (stopWriting_ready h) he⟩
      · exact ⟨h, rfl⟩

theorem setAcq_ready {g : Geom} {s : State} (h : Ready g s) (a : Acq) : Ready g (s.setAcq a) :=
  h.of_settings (setAcq_settings s a) (Or.inl rfl)

theorem requestTimeout_ready {g : Geom} {s : State} (h : Ready g s) : Ready g (requestTimeout s) :=
  h.of_settings (requestTimeout_settings s) (by unfold requestTimeout; split <;> exact Or.inl rfl)

theorem processFrame_ready {g : Geom} (hg : Proper g) (e : Env) (he : e.create 0 = .ok) {s : State} (h : Ready g s)
    (id : List Char) (f : Frame) :
    Ready g (processFrame e s id f).1 ∧ (processFrame e s id f).2.outcome ≠ .threw := by
  have h0 := frameInAcquisition_ready hg e he h id
  apply processFrame_cases e s id f (fun t r => Ready g t ∧ r.outcome ≠ .threw)
  · intro s1 b o hf
    rw [hf] at h0
    exact ⟨h0.1, by rw [show o = .ok from h0.2]; simp⟩
  · intro s1 hf _
    rw [hf] at h0
    refine ⟨fun a _ => ?_, fun a _ => ⟨requestTimeout_ready (setAcq_ready h0.1 a), by simp⟩,
      fun a _ => ⟨setAcq_ready h0.1 a, by simp⟩, fun a _ _ _ => ⟨setAcq_ready h0.1 a, by simp⟩⟩
    obtain ⟨k1, k2⟩ := stopAcq_ready hg e he (setAcq_ready h0.1 a)
    exact ⟨k1, by rw [show _ = Outcome.ok from k2]; simp⟩

theorem apply_creatable (c : DsetCfg) (d : DatasetDef) (l : List Nat) (h : c.dims = some l)
    (hc : Creatable l (c.chunks.getD (1 :: l))) : Creatable (c.apply d).dims (c.apply d).chunks := by
  obtain ⟨t, dm, ch, k⟩ := c
  simp only at h
  subst h
  cases t <;> cases ch <;> cases k <;> exact hc

theorem configureDataset_creatable (defs : List DatasetDef) (name : String) (c : DsetCfg) (l : List Nat)
    (h : c.dims = some l) (hc : Creatable l (c.chunks.getD (1 :: l)))
    (hd : ∀ d ∈ defs, Creatable d.dims d.chunks) :
    ∀ d ∈ configureDataset defs name c, Creatable d.dims d.chunks := by
  intro d hm
  obtain ⟨x, hx, rfl⟩ := List.mem_map.1 hm
  split
  · exact apply_creatable c x l h hc
  · rename_i hn
    unfold createNewDataset at hx
    split at hx
    · exact hd x hx
    · rcases List.mem_append.1 hx with hx | hx
      · exact hd x hx
      · rw [List.mem_singleton] at hx; subst hx; exact absurd rfl hn

theorem applySetting_ready {g : Geom} {s : State} (h : Ready g s) (x : Setting) (hx : Calm g x) :
    Ready g (applySetting s x).1 := by
  obtain ⟨⟨e1, e2, e3, e4⟩, hd, ht⟩ := h
  cases x with
  | number n =>
    simp only [applySetting, changeGeom]; split
    · exact ⟨⟨e1, e2, e3, e4⟩, hd, ht⟩
    · split
      · exact ⟨⟨e1, e2, e3, e4⟩, hd, ht⟩
      · exact ⟨⟨e1, hx, e3, e4⟩, hd, ht⟩
  | rank n =>
    simp only [applySetting, changeGeom]; split
    · exact ⟨⟨e1, e2, e3, e4⟩, hd, ht⟩
    · split
      · exact ⟨⟨e1, e2, e3, e4⟩, hd, ht⟩
      · exact ⟨⟨hx, e2, e3, e4⟩, hd, ht⟩
  | fpb n =>
    simp only [applySetting, changeGeom]; split
    · exact ⟨⟨e1, e2, e3, e4⟩, hd, ht⟩
    · split
      · exact ⟨⟨e1, e2, e3, e4⟩, hd, ht⟩
      · split
        · exact ⟨⟨e1, e2, e3, e4⟩, hd, ht⟩
        · exact ⟨⟨e1, e2, hx, e4⟩, hd, ht⟩
  | bpf n =>
    simp only [applySetting, changeGeom]; split
    · exact ⟨⟨e1, e2, e3, e4⟩, hd, ht⟩
    · split
      · exact ⟨⟨e1, e2, e3, e4⟩, hd, ht⟩
      · exact ⟨⟨e1, e2, e3, hx⟩, hd, ht⟩
  | path p u => simp only [applySetting]; split <;> exact ⟨⟨e1, e2, e3, e4⟩, hd, ht⟩
  | dataset name c =>
    obtain ⟨l, h1, h2⟩ := hx
    exact ⟨⟨e1, e2, e3, e4⟩, configureDataset_creatable s.defs name c l h1 h2 hd, ht⟩
  | deleteDatasets => exact ⟨⟨e1, e2, e3, e4⟩, by intro d hm; exact absurd hm (by simp [applySetting]), ht⟩
  | frames n =>
    simp only [applySetting]; split
    · exact ⟨⟨e1, e2, e3, e4⟩, hd, ht⟩
    · exact ⟨⟨e1, e2, e3, e4⟩, hd, hx⟩
  | startTimeout b =>
    simp only [applySetting]; split
    · exact requestTimeout_ready ⟨⟨e1, e2, e3, e4⟩, hd, ht⟩
    · exact ⟨⟨e1, e2, e3, e4⟩, hd, ht⟩
  | _ => exact ⟨⟨e1, e2, e3, e4⟩, hd, ht⟩

theorem configure_ready {g : Geom} (xs : List Setting) : ∀ {s : State}, Ready g s → (∀ x ∈ xs, Calm g x) →
    Ready g (configure s xs).1 := by
  induction xs with
  | nil => intro s h _; exact h
  | cons x xs ih =>
    intro s h hx
    have h1 := applySetting_ready h x (hx x (by simp))
    unfold configure
    cases hs : applySetting s x with
    | mk s' o =>
      rw [hs] at h1
      cases o with
      | ok => exact ih h1 (fun y hy => hx y (by simp [hy]))
      | threw => exact h1
      | ub => exact h1

theorem step_ready {g : Geom} (hg : Proper g) {s : State} (h : Ready g s) (o : Op) (hc : Creates o) (hm : CalmOp g o) :
    Ready g (step s o).1 ∧ (InThread o → (step s o).2.outcome ≠ .threw) := by
  cases o with
  | config xs => exact ⟨configure_ready xs h hm, fun k => k.elim⟩
  | start e =>
    refine ⟨?_, fun k => k.elim⟩
    simp only [step]
    unfold executeStart
    split
    · split <;> exact h.of_settings ⟨rfl, rfl, rfl, rfl, rfl, rfl, rfl⟩ (Or.inr rfl)
    · exact startWriting_ready e h
  | stop => exact ⟨stopWriting_ready h, fun k => k.elim⟩
  | frame e id f =>
    obtain ⟨k1, k2⟩ := processFrame_ready hg e hc h id f
    exact ⟨k1, fun _ => k2⟩
  | endOfAcquisition e =>
    obtain ⟨k1, k2⟩ := stopAcq_ready hg e hc h
    simp only [step]
    split
    · exact ⟨k1, fun _ => by rw [show _ = Outcome.ok from k2]; simp⟩
    · exact ⟨h, fun _ => by simp⟩
  | timerStarts =>
    refine ⟨?_, fun k => k.elim⟩
    simp only [step]
    split
    · exact h.of_settings ⟨rfl, rfl, rfl, rfl, rfl, rfl, rfl⟩ (Or.inl rfl)
    · exact h
  | timerNotified => exact ⟨h.of_settings ⟨rfl, rfl, rfl, rfl, rfl, rfl, rfl⟩ (Or.inl rfl), fun k => k.elim⟩
  | timerExpires e =>
    obtain ⟨k1, k2⟩ := stopAcq_ready hg e hc h
    simp only [step]
    split
    · split
      · exact ⟨k1.of_settings ⟨rfl, rfl, rfl, rfl, rfl, rfl, rfl⟩ (Or.inl rfl),
          fun _ => by rw [show _ = Outcome.ok from k2]; simp⟩
      · exact ⟨h.of_settings ⟨rfl, rfl, rfl, rfl, rfl, rfl, rfl⟩ (Or.inl rfl), fun _ => by simp⟩
    · exact ⟨h, fun _ => by simp⟩

/-- C129, the part that holds: if HDF5 creates what it is asked for, the rank is among the processes and stays, all
described datasets can be created, and every acquisition is endless or has a frame for this process, then no frame,
end of acquisition or timeout of any history ends in an exception. Missing: `C129_violated`,
`C129_violated_rank` and `C129_violated_timeout` show that the conditions on HDF5, on the frames of this process and on
the datasets cannot be dropped. -/
theorem C129_partial (g : Geom) (hg : Proper g) (ops : List Op) (o : Op) : ∀ (s : State), Ready g s →
    (∀ x ∈ ops ++ [o], Creates x ∧ CalmOp g x) → InThread o → (step (run s ops).1 o).2.outcome ≠ .threw := by
  induction ops with
  | nil => intro s h ho ht; exact (step_ready hg h o (ho o (by simp)).1 (ho o (by simp)).2).2 ht
  | cons x ops ih =>
    intro s h ho ht
    have hx := ho x (by simp)
    exact ih (step s x).1 (step_ready hg h x hx.1 hx.2).1 (fun y hy => ho y (by simp at hy ⊢; exact Or.inr hy)) ht

/-- The plugin as it is constructed is ready. -/
theorem init_ready (e : Env) (b : Bool) (d : String → Disk) : Ready ⟨0, 1, 1, 0⟩ (init e b d) :=
  ⟨⟨rfl, rfl, rfl, by simp [init]⟩, by intro x hx; exact absurd hx (by simp [init]), Or.inl rfl⟩

/-- Whatever throws in one of these threads is the start of an acquisition: writing frames, closing files and meta
data do not. The acquisition is the next one of a state with the settings of this one. -/
theorem C129_cause (s : State) (o : Op) (ht : InThread o) (h : (step s o).2.outcome = .threw) :
    ∃ e t, SameSettings s t ∧ t.writing = false ∧ (startWriting e t).2 = .threw := by
  have stopC : ∀ (e : Env) (u : State), SameSettings s u → (stopAcq e u).2 = .threw →
      ∃ e t, SameSettings s t ∧ t.writing = false ∧ (startWriting e t).2 = .threw := by
    intro e u hu hq
    refine ⟨e, stopWriting u, hu.trans (stopWriting_settings u), stopWriting_idle u, ?_⟩
    revert hq
    unfold stopAcq
    dsimp only
    split
    · split
      · simp
      · cases startWriting e (stopWriting u) with
        | mk s2 o => cases o <;> simp
    · simp
  cases o with
  | frame e id f =>
    have h0 := frameInAcquisition_settings e s id
    revert h
    apply processFrame_cases e s id f (fun _ r => r.outcome = .threw →
      ∃ e t, SameSettings s t ∧ t.writing = false ∧ (startWriting e t).2 = .threw)
    · intro s1 b o hf ho
      refine ⟨e, stopWriting s, stopWriting_settings s, stopWriting_idle s, ?_⟩
      have ho : o = .threw := ho
      subst ho
      revert hf
      unfold frameInAcquisition
      split
      · simp
      · split
        · simp
        · split
          · intro hf
            have := congrArg (·.2.2) hf
            exact this
          · simp
    · intro s1 hf _
      rw [hf] at h0
      exact ⟨fun a _ hq => stopC e _ (h0.trans (setAcq_settings s1 a)) hq, fun _ _ hq => by simp at hq,
        fun _ _ hq => by simp at hq, fun _ _ _ _ hq => by simp at hq⟩
  | endOfAcquisition e =>
    revert h
    simp only [step]
    split
    · exact stopC e s (.refl s)
    · simp
  | timerExpires e =>
    revert h
    simp only [step]
    split
    · split
      · exact stopC e s (.refl s)
      · simp
    · simp
  | _ => exact ht.elim

/-- Non-vacuity: two acquisitions, the second started by the last frame of the first, by rank 1 of 2. -/
def exCalm : List Op :=
  [.config [.path "/data" true, .filename ['r'],
     .dataset "data" { dataType := some .raw16, dims := some [2, 3], compression := some .none }, .frames 2],
   .start okEnv, .config [.filename ['s'], .frames 3]]

def exRank : State := (configure (init okEnv false (fun _ _ => none)) [.number 2, .rank 1]).1

example : Proper ⟨1, 2, 1, 0⟩ ∧ Ready ⟨1, 2, 1, 0⟩ exRank ∧
    (∀ x ∈ exCalm ++ [.frame okEnv [] (exFrame 1 1)], Creates x ∧ CalmOp ⟨1, 2, 1, 0⟩ x) ∧
    (step (run exRank exCalm).1 (.frame okEnv [] (exFrame 1 1))).1.writing = true ∧
    (step (run exRank exCalm).1 (.frame okEnv [] (exFrame 1 1))).2.status = some .complete ∧
    (step (run exRank exCalm).1 (.frame okEnv [] (exFrame 1 1))).2.outcome = .ok := by
  refine ⟨⟨by decide, by decide, by decide⟩, ⟨by decide, ?_, Or.inl rfl⟩, ?_, by decide +kernel, by decide +kernel, by decide +kernel⟩
  · intro d hd; exact absurd hd (by rw [show exRank.defs = [] from rfl]; simp)
  · intro x hx
    simp only [exCalm, List.cons_append, List.nil_append, List.mem_cons, List.not_mem_nil, or_false] at hx
    rcases hx with rfl | rfl | rfl | rfl <;> refine ⟨by simp [Spec.Creates, okEnv], ?_⟩ <;>
      simp [CalmOp, Calm, Creatable, calcNumFrames]

end Verif.FW
