import Verif.Props.Persist
import Verif.Lemmas.Local
import Verif.Lemmas.AcqSized
/-! Properties C17, C18, C19 (extents of the datasets) and C53 (no undefined behaviour while writing). -/
namespace Verif.Acq
open Verif.Placement

/-! ## C53: no undefined behaviour once an acquisition was started -/

theorem createDataset_not_ub (g : Geom) (w k : Nat) (f : H5File) (d : DatasetDef)
    (h : d.chunks ≠ []) : (createDataset g w k f d).2 ≠ .ub := by
  unfold createDataset
  cases hc : d.chunks with
  | nil => exact absurd hc h
  | cons c cs =>
    dsimp only
    repeat' split
    all_goals simp

theorem createDatasets_not_ub (g : Geom) (w k : Nat) (ds : List DatasetDef) : ∀ (f : H5File) (b),
    (∀ d ∈ ds, d.chunks ≠ []) → (createDatasets g w k f ds b).2 ≠ .ub := by
  induction ds with
  | nil => intro f b _; cases b with
    | none => simp [createDatasets]
    | some n => cases n <;> simp [createDatasets]
  | cons d ds ih =>
    have key : ∀ f b', (∀ d' ∈ d :: ds, d'.chunks ≠ []) → (match createDataset g w k f d with
        | (file', .ok) => createDatasets g w k file' ds b'
        | (file', o) => (file', o)).2 ≠ .ub := by
      intro f b' h
      have h1 := createDataset_not_ub g w k f d (h d (by simp))
      cases hh : createDataset g w k f d with
      | mk f' o =>
        rw [hh] at h1
        cases o with
        | ok => exact ih f' b' (fun d' hd' => h d' (by simp [hd']))
        | threw => simp
        | ub => exact absurd rfl h1
    intro f b h
    cases b with
    | none => exact key f none h
    | some n => cases n with
      | zero => simp [createDatasets]
      | succ n => exact key f _ h

theorem createFile_not_ub (e : Env) (a : Acq) (k : Nat) (hP : a.geom.procs ≠ 0)
    (h : ∀ d ∈ a.defs, d.chunks ≠ []) : (createFile e a k).2 ≠ .ub := by
  unfold createFile
  split
  · simp
  · dsimp only
    rw [if_neg (by simp [hP])]
    exact createDatasets_not_ub _ _ _ _ _ _ h

theorem createMissing_not_ub (e : Env) (target next : Nat) (a : Acq) (hP : a.geom.procs ≠ 0)
    (h : ∀ d ∈ a.defs, d.chunks ≠ []) : (createMissing e a next target).2 ≠ .ub := by
  induction hm : target - next using Nat.strongRecOn generalizing next a with
  | _ m ih =>
    unfold createMissing
    split
    · rename_i hlt
      have h1 := createFile_not_ub e a next hP h
      have hc := (createFile_created e a next).cfg
      cases hh : createFile e a next with
      | mk a' o =>
        rw [hh] at h1 hc
        cases o with
        | ok =>
          exact ih (target - (next + a.geom.procs)) (by omega) _ a' (by rw [hc.geom]; exact hP)
            (by rw [hc.defs]; exact h) rfl
        | threw => simp
        | ub => exact absurd rfl h1
    · simp

/-- Selecting the file of a frame is never undefined. -/
theorem getFile_not_ub (e : Env) (a : Acq) (off : Nat) (hinv : Inv a) (hP : a.geom.procs ≠ 0) :
    (getFile e a off).2 ≠ .ub := by
  obtain ⟨c, hc, _⟩ := hinv.cur
  unfold getFile
  rw [hc]
  dsimp only
  split
  · simp
  · split
    · simp
    · split
      · simp
      · split
        · have h1 := createMissing_not_ub e (fileIndex a.geom off) (c.index + a.geom.procs) a hP
            hinv.chunks
          cases hh : createMissing e a (c.index + a.geom.procs) (fileIndex a.geom off) with
          | mk a' o =>
            cases o with
            | ok =>
              dsimp only
              have hcr : SameCfg a a' := by
                have := (createMissing_creates e (fileIndex a.geom off) (c.index + a.geom.procs) a c hc
                  rfl (by omega)).1.cfg
                rw [hh] at this; exact this
              have h2 := createFile_not_ub e a' (fileIndex a.geom off) (by rw [hcr.geom]; exact hP)
                (by rw [hcr.defs]; exact hinv.chunks)
              cases hh2 : createFile e a' (fileIndex a.geom off) with
              | mk a'' o2 =>
                rw [hh2] at h2
                cases o2 with
                | ok => simp
                | threw => simp
                | ub => exact absurd rfl h2
            | threw => simp
            | ub => rw [hh] at h1; exact absurd rfl h1
        · simp

theorem writeTo_not_ub (e : Env) (a : Acq) (f : Frame) (off : Nat) (u : Bool) (file : H5File)
    (hf : a.file u = some file) (hc : a.current.isSome) (h : ∀ d ∈ a.defs, d.chunks ≠ []) :
    (writeTo e a f off u).2 ≠ .ub := by
  unfold writeTo
  rw [hf]
  dsimp only
  split
  · simp
  · split
    · simp
    · cases hd : findDef a.defs f.dataset with
      | none => simp
      | some d =>
        dsimp only
        have hmem : d ∈ a.defs := List.mem_of_find?_eq_some hd
        cases hch : d.chunks with
        | nil => exact absurd hch (h d hmem)
        | cons outer rest =>
          dsimp only
          cases hw : writeFrame e a.disk file f (offsetInFile a.geom off) outer with
          | mk file1 rest1 =>
            obtain ⟨disk1, threw1⟩ := rest1
            cases threw1 with
            | true => simp
            | false =>
              dsimp only
              cases hp : writeParams a.defs (offsetInFile a.geom off) file1 disk1 f.params with
              | mk file2 rest2 =>
                obtain ⟨disk2, threw2⟩ := rest2
                cases threw2 with
                | true => simp
                | false =>
                  dsimp only
                  generalize hg : (({ a with disk := disk2 } : Acq).setFile u file2).publish
                    (.write (toU64 f.number) off) = g
                  have hcur : ∃ c, g.current = some c := by
                    rw [← hg]
                    cases u with
                    | true =>
                      obtain ⟨c, hc⟩ := Option.isSome_iff_exists.mp hc
                      exact ⟨c, by simpa [Acq.setFile, Acq.publish] using hc⟩
                    | false => exact ⟨file2, by simp [Acq.setFile, Acq.publish]⟩
                  obtain ⟨c, hc⟩ := hcur
                  unfold account
                  rw [hc]
                  dsimp only
                  split
                  · split
                    · simp
                    · exact (completion_ne _ _ _).2
                  · exact (completion_ne _ _ _).2

/-- C53, full statement: starting an acquisition with any settings, and every frame after that, is defined. -/
def C53_statement : Prop :=
  (∀ (e : Env) (geom : Geom) (naming : Filename.Cfg) (master : String) (defs : List DatasetDef) (total : Nat) (disk : Disk) (x : Acq × Outcome),
    startAcquisition e (fresh geom naming master defs total disk) = some x → x.2 ≠ .ub) ∧
  ∀ (e : Env) (a : Acq) (f : Frame), Reachable e a → (processFrame e a f).2 ≠ .ub

/-- C53, proved part: once an acquisition was started with at least one process and at least one frame per block, and products that fit into 64
bits, no frame whatsoever (and no failure of the HDF5 library) leads to undefined behaviour: no division by
zero, no access through a missing file object, no access to an element of an empty chunk list. -/
theorem C53_no_ub_partial (e : Env) (a : Acq) (f : Frame) (ha : Reachable e a)
    (hz : a.geom.bad = false) : (processFrame e a f).2 ≠ .ub := by
  have hinv := ha.inv
  have hP := ((not_bad _).1 hz).1
  apply processFrame_ind e a f (fun _ st => st ≠ .ub)
  · simp
  · intro h; rw [hz] at h; cases h
  · intro off hv ho _ _ _
    refine ⟨fun _ _ => by simp, ?_, ?_⟩
    · intro b hb
      have := getFile_not_ub e a off hinv hP
      rw [hb] at this; exact absurd rfl this
    · intro b u hb
      have hbinv := getFile_inv e a off hinv
      have hcfg := getFile_cfg e a off
      have hspec := getFile_spec e a off
      rw [hb] at hbinv hcfg hspec
      simp only at hbinv hcfg hspec
      obtain ⟨c, hc, _⟩ := hbinv.cur
      cases u with
      | true =>
        obtain ⟨hba, _, p, hp, _⟩ := hspec.2.2.2.1 (by simp)
        exact writeTo_not_ub e b f off true p (by rw [hba]; exact hp) (by simp [hc]) hbinv.chunks
      | false => exact writeTo_not_ub e b f off false c hc (by simp [hc]) hbinv.chunks

/-- Non-vacuity of C53: a reachable state with such a geometry. -/
example : Reachable okEnv exStart ∧ exStart.geom.bad = false :=
  ⟨exStart_reachable, by decide +kernel⟩

/-- The condition on the geometry is needed: with zero processes (which the plugin accepts, see C13)
an acquisition without datasets starts, and one with a dataset is undefined from the start. -/
theorem C53_zero_processes_ub :
    ((startAcquisition okEnv (fresh ⟨0, 0, 1, 1⟩ exNaming "" [exDef] 10 (fun _ => none))).map
      (fun x => x.2)) = some .ub := by
  unfold startAcquisition
  rw [if_neg (by decide)]
  rfl

/-- An acquisition with a dataset that was configured without chunks is undefined from the start. -/
theorem C53_no_chunks_ub :
    ((startAcquisition okEnv (fresh ⟨0, 1, 1, 1⟩ exNaming "" [{ exDef with chunks := [] }] 10
      (fun _ => none))).map (fun x => x.2)) = some .ub := by
  unfold startAcquisition
  rw [if_neg (by decide)]
  rfl

theorem C53_violated : ¬ C53_statement := by
  intro h
  have h0 := C53_no_chunks_ub
  rcases e : startAcquisition okEnv (fresh ⟨0, 1, 1, 1⟩ exNaming "" [{ exDef with chunks := [] }] 10 (fun _ => none)) with _ | x
  · rw [e] at h0; cases h0
  · rw [e] at h0
    simp only [Option.map_some, Option.some.injEq] at h0
    exact h.1 _ _ _ _ _ _ _ x e h0

/-! ## C17 -/

theorem Reachable.toWrite {e : Env} {a : Acq} (h : Reachable e a) :
    a.framesToWrite = calcNumFrames a.geom a.totalFrames := by
  induction h with
  | start geom naming master defs total disk a hs =>
    have := (start_inv e _ a rfl hs).2.1
    rw [this.toWrite, this.geom, this.total]; rfl
  | frame a f _ _ ih =>
    have := processFrame_cfg e a f
    rw [this.toWrite, this.geom, this.total]; exact ih

/-- C17, full statement. A frame carries `c` images, where `c` is the first chunk dimension of its
dataset; the frame with offset `off` holds images `off * c .. off * c + c - 1` of the `total` images of
the acquisition. Whenever such a frame of this process belongs to a file that is open, the dataset in
that file has room for all images of the frame. False for `c > 1`, see `C17_violated`. -/
def C17_statement : Prop :=
  ∀ (e : Env) (a : Acq) (u : Bool) (file : H5File) (ds : String) (s : Dset) (c off : Nat),
    Reachable e a → 0 < a.geom.fpb → a.geom.rank < a.geom.procs → a.totalFrames ≠ 0 →
    a.file u = some file → file.dset ds = some s → outerOf a.defs ds = some c →
    (off + 1) * c ≤ a.totalFrames → Placement.Spec.owner a.geom.procs a.geom.fpb off = a.geom.rank →
    Spec.fileOf a.geom off = file.index → (Spec.slotOf a.geom off + 1) * c ≤ s.dim0

/-- The extent of every dataset of a bounded acquisition is the one `create_file` computed. -/
theorem extent_eq {e : Env} {a : Acq} (ha : Reachable e a) (ht : a.totalFrames ≠ 0)
    (u : Bool) (file : H5File) (ds : String) (s : Dset) (c : Nat) (hf : a.file u = some file)
    (hs : file.dset ds = some s) (hc : outerOf a.defs ds = some c) :
    file.unlimited = false ∧
    s.dim0 = datasetFrames a.geom c (calcNumFrames a.geom a.totalFrames) file.index := by
  have hsz : Sized a file := by
    cases u
    · exact ha.allSized.1 file hf
    · exact ha.allSized.2 file hf
  have hok : FileOK a file := by
    cases u
    · obtain ⟨c', h1, h2⟩ := ha.inv.cur
      have : some c' = some file := h1.symm.trans hf
      cases this; exact h2
    · exact ha.inv.prev file hf
  have hopen : file.isOpen = true := by
    cases ho : file.isOpen with
    | true => rfl
    | false =>
      have := hok.2 ho
      have h2 : (file.dset ds).isSome := by rw [hs]; rfl
      rw [dset_isSome_iff, this] at h2; simp at h2
  have hu : file.unlimited = false := by rw [hsz.1 hopen]; simpa using ht
  obtain ⟨ch, k1, _, k3⟩ := hsz.2 ds s hs
  rw [hc] at k1; cases k1
  exact ⟨hu, by rw [k3 hu, ha.toWrite]⟩

/-- C17 for one image per frame, with any number of processes and any geometry. Missing: datasets with
several images per frame and several processes, where the claim is false (`C17_violated`). -/
theorem C17_partial (e : Env) (a : Acq) (u : Bool) (file : H5File) (ds : String) (s : Dset) (off : Nat)
    (ha : Reachable e a) (hB : 0 < a.geom.fpb) (hr : a.geom.rank < a.geom.procs)
    (ht : a.totalFrames ≠ 0) (hf : a.file u = some file) (hs : file.dset ds = some s)
    (hc : outerOf a.defs ds = some 1) (hoff : off < a.totalFrames)
    (ho : Placement.Spec.owner a.geom.procs a.geom.fpb off = a.geom.rank)
    (hfile : Spec.fileOf a.geom off = file.index) : Spec.slotOf a.geom off < s.dim0 := by
  obtain ⟨_, h⟩ := extent_eq ha ht u file ds s 1 hf hs hc
  have hl := localIndex_lt a.geom off a.totalFrames hB hr ho hoff
  have := datasetFrames_covers a.geom 1 (calcNumFrames a.geom a.totalFrames) off hB hr (by omega)
  rw [hfile, ← h] at this
  omega

/-- C17 for any number of images per frame when there is one process. -/
theorem C17_one_process_partial (e : Env) (a : Acq) (u : Bool) (file : H5File) (ds : String) (s : Dset)
    (c off : Nat) (ha : Reachable e a) (hB : 0 < a.geom.fpb) (hr : a.geom.rank = 0)
    (hP : a.geom.procs = 1) (ht : a.totalFrames ≠ 0) (hf : a.file u = some file)
    (hs : file.dset ds = some s) (hc : outerOf a.defs ds = some c)
    (hoff : (off + 1) * c ≤ a.totalFrames) (hfile : Spec.fileOf a.geom off = file.index) :
    (Spec.slotOf a.geom off + 1) * c ≤ s.dim0 := by
  obtain ⟨_, h⟩ := extent_eq ha ht u file ds s c hf hs hc
  have hl : Spec.localIndex a.geom off = off := by
    unfold Spec.localIndex
    rw [hP, Nat.div_one, Nat.mul_comm]; exact Nat.div_add_mod _ _
  have hn : calcNumFrames a.geom a.totalFrames = a.totalFrames := by
    obtain ⟨o', h1, h2⟩ := localIndex_surj a.geom a.totalFrames hB (by omega)
    have h3 : Spec.localIndex a.geom o' = o' := by
      unfold Spec.localIndex
      rw [hP, Nat.div_one, Nat.mul_comm]; exact Nat.div_add_mod _ _
    have : o' = a.totalFrames := by omega
    have h4 := count_at a.geom a.totalFrames hB (by omega) (by rw [hP, Nat.mod_one, hr])
    rw [h4, ← this]; exact h3
  have := datasetFrames_covers a.geom c (calcNumFrames a.geom a.totalFrames) off hB (by omega)
    (by rw [hl, hn]; exact hoff)
  rw [hfile, ← h] at this
  exact this

/-- A dataset with two images per frame. -/
def exDef2 : DatasetDef := { exDef with chunks := [2, 2, 3] }

def exStart2 : Acq :=
  ((startAcquisition okEnv (fresh ⟨0, 2, 1, 0⟩ exNaming "" [exDef2] 6 (fun _ => none))).getD
    (fresh ⟨0, 2, 1, 0⟩ exNaming "" [exDef2] 6 (fun _ => none), .ub)).1

theorem exStart2_reachable : Reachable okEnv exStart2 :=
  .start ⟨0, 2, 1, 0⟩ exNaming "" [exDef2] 6 (fun _ => none) exStart2 (by
    unfold exStart2 startAcquisition
    rw [if_neg (by decide)]
    rfl)

/-- C17 is false of the code for datasets with several images per frame: two processes, one frame per
block, two images per frame, 6 images (3 frames). Process 0 gets frames 0 and 2, four images, but its
dataset has an extent of 3. -/
theorem C17_violated : ¬ C17_statement := by
  intro h
  have := h okEnv exStart2 false
    { index := 0, name := Filename.generate exNaming 0, isOpen := true, unlimited := false,
      dsets := [("data", { dim0 := 3, actual := 0 })] } "data" { dim0 := 3, actual := 0 } 2 2
    exStart2_reachable (by decide +kernel) (by decide +kernel) (by decide +kernel)
    (by decide +kernel) (by decide +kernel) (by decide +kernel) (by decide +kernel) (by decide +kernel)
    (by decide +kernel)
  revert this
  decide +kernel

/-- Non-vacuity of `C17_partial`: three processes, blocks of 2, files of 3 blocks, 31 frames: the
second file of process 0 (number 3) has 5 slots, for frames 18, 19, 24, 25 and 30. -/
example : ∃ file s, (run okEnv
      (((startAcquisition okEnv (fresh ⟨0, 3, 2, 3⟩ exNaming "" [exDef] 31 (fun _ => none))).getD
        (fresh ⟨0, 3, 2, 3⟩ exNaming "" [exDef] 31 (fun _ => none), .ub)).1)
      [exFrame 0 7, exFrame 18 8]).1.current = some file ∧ file.dset "data" = some s ∧
      file.index = 3 ∧ s.dim0 = 5 ∧ Spec.slotOf ⟨0, 3, 2, 3⟩ 30 = 4 ∧ Spec.fileOf ⟨0, 3, 2, 3⟩ 30 = 3 :=
  ⟨{ index := 3, name := Filename.generate exNaming 3, isOpen := true, unlimited := false,
     dsets := [("data", { dim0 := 5, actual := 1 })] }, { dim0 := 5, actual := 1 },
   by decide +kernel, by decide +kernel, rfl, rfl, by decide +kernel, by decide +kernel⟩

end Verif.Acq
