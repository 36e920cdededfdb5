import Verif.Props.Sizes
/-! Properties C18 (out-of-range slots are rejected) and C19 (extending a dataset loses nothing). -/
namespace Verif.Acq
open Verif.Placement

/-! ## Facts about reachable states used below -/

theorem createDatasets_ok_pos (g : Geom) (w k : Nat) (ds : List DatasetDef) : ∀ (f : H5File) (b),
    (createDatasets g w k f ds b).2 = .ok →
    ∀ d ∈ ds, ∃ c cs, d.chunks = c :: cs ∧ 0 < c := by
  induction ds with
  | nil => simp
  | cons d ds ih =>
    have key : ∀ f b', (match createDataset g w k f d with
        | (file', .ok) => createDatasets g w k file' ds b'
        | (file', o) => (file', o)).2 = .ok →
        ∀ d' ∈ d :: ds, ∃ c cs, d'.chunks = c :: cs ∧ 0 < c := by
      intro f b'
      have h1 : (createDataset g w k f d).2 = .ok → ∃ c cs, d.chunks = c :: cs ∧ 0 < c := by
        unfold createDataset
        cases hch : d.chunks with
        | nil => simp
        | cons c cs =>
          dsimp only
          by_cases hz : (d.dims.any (· == 0) || (c :: cs).any (· == 0)) = true
          · rw [if_pos hz]; simp
          · intro _
            refine ⟨c, cs, rfl, ?_⟩
            rcases Nat.eq_zero_or_pos c with h | h
            · subst h; simp at hz
            · exact h
      cases hh : createDataset g w k f d with
      | mk f' o =>
        rw [hh] at h1
        cases o with
        | ok =>
          dsimp only
          intro hok d' hd'
          rcases List.mem_cons.mp hd' with h | h
          · subst h; exact h1 rfl
          · exact ih f' b' hok d' h
        | threw => simp
        | ub => simp
    intro f b
    cases b with
    | none => exact key f none
    | some n => cases n with
      | zero => simp [createDatasets]
      | succ n => exact key f _

/-- All chunk dimensions along the frame axis are positive once an acquisition has started. -/
theorem Reachable.outer_pos {e : Env} {a : Acq} (h : Reachable e a) (ds : String) (c : Nat)
    (hc : outerOf a.defs ds = some c) : 0 < c := by
  have key : ∀ d ∈ a.defs, ∃ c cs, d.chunks = c :: cs ∧ 0 < c := by
    clear hc
    induction h with
    | start geom naming master defs total disk a hs =>
      rw [(start_inv e _ a rfl hs).2.1.defs]
      unfold startAcquisition at hs
      split at hs
      · simp at hs
      · simp only [Option.some.injEq] at hs
        have hok := congrArg Prod.snd hs
        unfold createFile at hok
        split at hok
        · simp at hok
        · dsimp only at hok
          split at hok
          · simp at hok
          · exact createDatasets_ok_pos _ _ _ _ _ _ hok
    | frame a f _ _ ih => rw [(processFrame_cfg e a f).defs]; exact ih
  unfold outerOf at hc
  cases hd : findDef a.defs ds with
  | none => rw [hd] at hc; simp at hc
  | some d =>
    rw [hd] at hc
    obtain ⟨c', cs, h1, h2⟩ := key d (List.mem_of_find?_eq_some hd)
    simp [h1] at hc
    omega

/-! ## C18 -/

/-- C18, full statement: in a bounded acquisition a frame that gets a non-error status lies inside
the dataset of its file. False, see `C18_violated`. -/
def C18_statement : Prop :=
  ∀ (e : Env) (a : Acq) (f : Frame), Reachable e a → a.totalFrames ≠ 0 →
    (processFrame e a f).2.good →
    ∃ (off c : Nat) (u : Bool) (file : H5File) (s : Dset),
      adjustOffset f.number f.adj = some off ∧ outerOf a.defs f.dataset = some c ∧
      (processFrame e a f).1.file u = some file ∧ file.index = Spec.fileOf a.geom off ∧
      file.dset f.dataset = some s ∧ Spec.slotOf a.geom off * c < s.dim0

/-- Common part of the two partial theorems. -/
theorem C18_aux (e : Env) (a : Acq) (f : Frame) (ha : Reachable e a) (ht : a.totalFrames ≠ 0)
    (hgood : (processFrame e a f).2.good) :
    ∃ (off c : Nat) (u : Bool) (file : H5File) (s : Dset),
      adjustOffset f.number f.adj = some off ∧ outerOf a.defs f.dataset = some c ∧
      (processFrame e a f).1.file u = some file ∧ file.index = Spec.fileOf a.geom off ∧
      file.dset f.dataset = some s ∧ 
      (e.edge = false → Spec.slotOf a.geom off * c < s.dim0) ∧
      (s.dim0 ≠ 1 → Spec.slotOf a.geom off < s.dim0) ∧
      Spec.slotOf a.geom off * c ≤ s.dim0 := by
  have hinv := ha.inv
  revert hgood
  apply processFrame_ind e a f (fun b st => st.good → ∃ (off c : Nat) (u : Bool) (file : H5File) (s : Dset),
      adjustOffset f.number f.adj = some off ∧ outerOf a.defs f.dataset = some c ∧
      b.file u = some file ∧ file.index = Spec.fileOf a.geom off ∧
      file.dset f.dataset = some s ∧
      (e.edge = false → Spec.slotOf a.geom off * c < s.dim0) ∧
      (s.dim0 ≠ 1 → Spec.slotOf a.geom off < s.dim0) ∧
      Spec.slotOf a.geom off * c ≤ s.dim0)
  · intro h; simp [Status.good] at h
  · intro _ h; simp [Status.good] at h
  · intro off hv ho hP hB hacc
    refine ⟨fun b _ h => by simp [Status.good] at h, fun b _ h => by simp [Status.good] at h, ?_⟩
    intro b u hg hgood
    have hbinv := getFile_inv e a off hinv
    have hcfg := getFile_cfg e a off
    have hspec := getFile_spec e a off
    have hsz := (getFile_spec e a off).1.allSized ha.allSized
    rw [hg] at hbinv hcfg hspec hsz
    simp only at hbinv hcfg hspec hsz
    obtain ⟨g1, g2⟩ := (Status.good_iff _).1 hgood
    obtain ⟨file, file', outer, n, s, s', w1, w2, w3, w4, w5, w6, w7, w8, w9, w10, w11, w12, w13⟩ :=
      (writeTo_sizes e b f off u).good g1 g2
    have hfile : FileOK b file ∧ Sized b file ∧ file.index = Spec.fileOf a.geom off := by
      cases u with
      | true =>
        obtain ⟨hba, hbpf, p, hp1, hp2⟩ := hspec.2.2.2.1 (by simp)
        refine ⟨hbinv.prev _ w1, hsz.2 _ w1, ?_⟩
        have : a.previous = some file := by rw [← hba]; exact w1
        rw [this] at hp1; cases hp1
        rw [hp2, fileOf_eq _ _ hbpf]
      | false =>
        obtain ⟨c, hc1, hc2⟩ := hspec.2.2.1 (by simp)
        have hw : b.current = some file := w1
        rw [hw] at hc1; cases hc1
        obtain ⟨c', hc', hok⟩ := hbinv.cur
        rw [hw] at hc'; cases hc'
        refine ⟨hok, hsz.1 _ w1, ?_⟩
        by_cases hbpf : a.geom.bpf = 0
        · have := hbinv.single (by rw [hcfg.geom]; exact hbpf) file hw
          rw [this, hcfg.geom]; simp [Spec.fileOf, hbpf]
        · rw [hc2 hbpf, fileOf_eq _ _ hbpf]
    obtain ⟨hok, hsized, hidx⟩ := hfile
    have hopen : file.isOpen = true := by
      cases ho : file.isOpen with
      | true => rfl
      | false =>
        have := hok.2 ho
        have h2 : (file.dset f.dataset).isSome := by rw [w6]; rfl
        rw [dset_isSome_iff, this] at h2; simp at h2
    have hu : file.unlimited = false := by
      rw [hsized.1 hopen, hcfg.total]; simpa using ht
    obtain ⟨_, _, hd1, _⟩ := hsized.2 _ _ w6
    have hdim : s'.dim0 = s.dim0 := by
      obtain ⟨s0, q1, q2, q3⟩ := w8.2 _ _ w7
      rw [w6] at q1; cases q1
      exact q3 hu
    refine ⟨off, outer, u, file', s', ho, by rw [← hcfg.defs]; exact w3, w2, ?_, w7, ?_, ?_, ?_⟩
    · rw [w8.1.1]; exact hidx
    · rw [← slotOf_eq, ← hcfg.geom]; exact w12
    · intro hne
      rw [← slotOf_eq, ← hcfg.geom]
      unfold exceedsExtent at w9
      rw [hu] at w9
      simp only [Bool.false_eq_true, if_false] at w9
      rw [if_neg (by omega)] at w9
      rw [hdim] at hne ⊢
      simp at w9
      have := w9 (by omega)
      omega
    · rw [← slotOf_eq, ← hcfg.geom]; exact w11

/-- C18 when the HDF5 library itself refuses a chunk at the extent. -/
theorem C18_strict_library_partial (e : Env) (he : e.edge = false) (a : Acq) (f : Frame)
    (ha : Reachable e a) (ht : a.totalFrames ≠ 0) (hgood : (processFrame e a f).2.good) :
    ∃ (off c : Nat) (u : Bool) (file : H5File) (s : Dset),
      adjustOffset f.number f.adj = some off ∧ outerOf a.defs f.dataset = some c ∧
      (processFrame e a f).1.file u = some file ∧ file.index = Spec.fileOf a.geom off ∧
      file.dset f.dataset = some s ∧ Spec.slotOf a.geom off * c < s.dim0 := by
  obtain ⟨off, c, u, file, s, h1, h2, h3, h4, h5, h6, _⟩ := C18_aux e a f ha ht hgood
  exact ⟨off, c, u, file, s, h1, h2, h3, h4, h5, h6 he⟩

/-- C18 for any library, for datasets with one image per frame: a frame with a non-error status is
inside the dataset unless the dataset has exactly one slot, and then it is at most one beyond. Missing:
datasets of one slot and datasets with several images per frame, where the check of the code does not
exclude positions outside (`C18_violated`). -/
theorem C18_partial (e : Env) (a : Acq) (f : Frame) (ha : Reachable e a) (ht : a.totalFrames ≠ 0)
    (hgood : (processFrame e a f).2.good) (hc : outerOf a.defs f.dataset = some 1) :
    ∃ (off : Nat) (u : Bool) (file : H5File) (s : Dset),
      adjustOffset f.number f.adj = some off ∧
      (processFrame e a f).1.file u = some file ∧ file.index = Spec.fileOf a.geom off ∧
      file.dset f.dataset = some s ∧
      (Spec.slotOf a.geom off < s.dim0 ∨ (s.dim0 = 1 ∧ Spec.slotOf a.geom off = 1)) := by
  obtain ⟨off, c, u, file, s, h1, h2, h3, h4, h5, h6, h7, h8⟩ := C18_aux e a f ha ht hgood
  rw [hc] at h2; cases h2
  refine ⟨off, u, file, s, h1, h3, h4, h5, ?_⟩
  by_cases hd : s.dim0 = 1
  · omega
  · exact Or.inl (h7 hd)

/-- C18: a frame for an existing file (the current or the previous one) with a slot beyond the extent
of a dataset with at least two slots is refused before anything is passed to the HDF5 library: the
whole state is unchanged. -/
theorem C18_refused (e : Env) (a : Acq) (f : Frame) (off : Nat) (u : Bool) (file : H5File) (s : Dset)
    (ho : adjustOffset f.number f.adj = some off) (hz : a.geom.bad = false)
    (hsel : getFile e a off = (a, if u then .prev else .cur)) (hf : a.file u = some file)
    (hs : file.dset f.dataset = some s) (hu : file.unlimited = false) (h2 : 2 ≤ s.dim0)
    (hbeyond : s.dim0 ≤ Spec.slotOf a.geom off) : processFrame e a f = (a, .invalid) := by
  unfold processFrame
  by_cases hv : checkFrameValid a.defs f = true
  · rw [if_pos hv, ho]
    dsimp only
    rw [if_neg (by rw [hz]; simp)]
    by_cases hacc : acceptsOffset a.geom off = true
    · rw [if_pos hacc, hsel]
      have hw : writeTo e a f off u = (a, .invalid) := by
        unfold writeTo
        rw [hf]
        dsimp only
        rw [hs, hu]
        dsimp only
        rw [if_pos]
        rw [slotOf_eq]
        simp [exceedsExtent]
        omega
      cases u with
      | true => exact hw
      | false => exact hw
    · rw [if_neg hacc]
  · rw [if_neg hv]

/-- A library that accepts a chunk at the extent. -/
def edgeEnv : Env := { create := fun _ => .ok, edge := true }

def exStart3 : Acq :=
  ((startAcquisition edgeEnv (fresh ⟨0, 1, 1, 0⟩ exNaming "" [exDef] 1 (fun _ => none))).getD
    (fresh ⟨0, 1, 1, 0⟩ exNaming "" [exDef] 1 (fun _ => none), .ub)).1

theorem exStart3_reachable : Reachable edgeEnv exStart3 :=
  .start ⟨0, 1, 1, 0⟩ exNaming "" [exDef] 1 (fun _ => none) exStart3 (by
    unfold exStart3 startAcquisition
    rw [if_neg (by decide)]
    rfl)

/-- C18 is false of the code: with one frame expected the bound is 0, which switches the check off, and
frame 1 is passed to the library at position 1 of a dataset of extent 1. -/
theorem C18_violated : ¬ C18_statement := by
  intro h
  obtain ⟨off, c, u, file, s, h1, h2, h3, h4, h5, h6⟩ := h edgeEnv exStart3 (exFrame 1 71)
    exStart3_reachable (by decide +kernel) (by unfold Status.good; decide +kernel)
  have hoff : off = 1 := by
    have : adjustOffset (exFrame 1 71).number (exFrame 1 71).adj = some 1 := by decide +kernel
    rw [this] at h1; simpa using h1.symm
  subst hoff
  have hc : c = 1 := by
    have : outerOf exStart3.defs (exFrame 1 71).dataset = some 1 := by decide +kernel
    rw [this] at h2; simpa using h2.symm
  subst hc
  have hs : Spec.slotOf exStart3.geom 1 = 1 := by decide +kernel
  rw [hs] at h6
  cases u with
  | true =>
    have : (processFrame edgeEnv exStart3 (exFrame 1 71)).1.file true = none := by decide +kernel
    rw [this] at h3; simp at h3
  | false =>
    have : ((processFrame edgeEnv exStart3 (exFrame 1 71)).1.file false).bind
        (fun x => x.dset "data") = some { dim0 := 1, actual := 2 } := by decide +kernel
    rw [h3] at this
    have h7 : file.dset "data" = some { dim0 := 1, actual := 2 } := this
    have h8 : file.dset "data" = some s := h5
    rw [h7] at h8; cases h8
    simp at h6

/-- Non-vacuity: with ten frames expected, frame 9 is accepted and frame 10 refused. -/
example :
    let a := ((startAcquisition edgeEnv (fresh ⟨0, 1, 1, 0⟩ exNaming "" [exDef] 10 (fun _ => none))).getD
      (fresh ⟨0, 1, 1, 0⟩ exNaming "" [exDef] 1 (fun _ => none), .ub)).1
    (run edgeEnv a [exFrame 9 79, exFrame 10 80]).2 = [.completeMissing, .invalid] := by
  decide +kernel

/-! ## C19 -/

/-- Every value stored in a file object's datasets lies inside their extents. -/
def Covered (a : Acq) (c : H5File) : Prop :=
  ∀ ds s p v, c.dset ds = some s → a.disk.read c.name ds p = some v → p < s.dim0

theorem writeFrame_covered (e : Env) (d : Disk) (file : H5File) (f : Frame) (slot outer : Nat)
    (hpos : 0 < outer) (hu : file.unlimited = true)
    (h : ∀ ds s p v, file.dset ds = some s → d.read file.name ds p = some v → p < s.dim0) :
    ∀ ds s p v, (writeFrame e d file f slot outer).1.dset ds = some s →
      (writeFrame e d file f slot outer).2.1.read file.name ds p = some v → p < s.dim0 := by
  intro ds s p v hs hr
  obtain ⟨w1, _⟩ := writeFrame_sizes e d file f slot outer
  obtain ⟨s0, k1, k2, _⟩ := w1.2 ds s hs
  rcases writeFrame_disk e d file f slot outer with hd | ⟨hd, _⟩
  · rw [hd.1] at hr
    have := h ds s0 p v k1 hr
    omega
  · rw [hd, read_store] at hr
    split at hr
    · rename_i hh
      obtain ⟨_, h2, h3, _⟩ := hh
      subst h2 h3
      -- the extent was grown
      have : (slot + 1) * outer ≤ s.dim0 := by
        unfold writeFrame at hs
        rw [k1] at hs
        dsimp only at hs
        obtain ⟨g1, g2, g3, g4⟩ := grow_facts file.unlimited s0 ((slot + 1) * outer)
        obtain ⟨n1, n2⟩ := noteWritten_facts (Dset.grow file.unlimited s0 ((slot + 1) * outer))
          (slot * outer + f.outerChunk)
        have g3 := g3 hu
        repeat' split at hs
        all_goals (rw [dset_setDset, if_pos rfl, k1] at hs; simp at hs; subst hs)
        · exact g3
        · exact g3
        · rw [n1]; exact g3
      rw [Nat.succ_mul] at this
      omega
    · have := h ds s0 p v k1 hr
      omega

theorem writeParams_covered (defs : List DatasetDef) (slot : Nat) (ps : List Param) :
    ∀ (file : H5File) (d : Disk),
    (∀ ds s p v, file.dset ds = some s → d.read file.name ds p = some v → p < s.dim0) →
    ∀ ds s p v, (writeParams defs slot file d ps).1.dset ds = some s →
      (writeParams defs slot file d ps).2.1.read file.name ds p = some v → p < s.dim0 := by
  induction ps with
  | nil => intro file d h; exact h
  | cons q ps ih =>
    intro file d h
    unfold writeParams
    split
    · exact ih file d h
    · cases hs : file.dset q.name with
      | none => exact h
      | some s =>
        dsimp only
        obtain ⟨g1, g2, g3, g4⟩ := grow_facts file.unlimited s (slot + 1)
        have hg := setDset_grows file q.name s _ hs g1 g2
        split
        · rename_i hlt
          have hlt := hlt.1
          apply ih (file.setDset q.name (Dset.grow file.unlimited s (slot + 1)))
          intro ds s1 p v h1 h2
          rw [read_store] at h2
          split at h2
          · rename_i hh
            obtain ⟨_, hh1, hh2, _⟩ := hh
            subst hh1 hh2
            rw [dset_setDset, if_pos rfl, hs] at h1
            simp at h1
            subst h1
            exact hlt
          · obtain ⟨s0, k1, k2, _⟩ := hg.2 ds s1 h1
            have := h ds s0 p v k1 h2
            omega
        · intro ds s1 p v h1 h2
          obtain ⟨s0, k1, k2, _⟩ := hg.2 ds s1 h1
          have := h ds s0 p v k1 h2
          omega

/-- Writing keeps every value of the selected (unlimited) file inside the extents. -/
theorem writeTo_covered (e : Env) (a : Acq) (f : Frame) (off : Nat) (u : Bool) (file : H5File)
    (hfile : a.file u = some file) (hun : file.unlimited = true)
    (hpos : ∀ o, outerOf a.defs f.dataset = some o → 0 < o) (hcov : Covered a file) :
    ∀ file', (writeTo e a f off u).1.file u = some file' → Covered (writeTo e a f off u).1 file' := by
  unfold writeTo
  rw [hfile]
  dsimp only
  have same : ∀ st : Status, ∀ file', (a, st).1.file u = some file' → Covered (a, st).1 file' := by
    intro st file' h
    have : some file = some file' := hfile.symm.trans h
    cases this
    exact hcov
  split
  · exact same _
  · split
    · exact same _
    · cases hd : findDef a.defs f.dataset with
      | none => exact same _
      | some d =>
        dsimp only
        cases hch : d.chunks with
        | nil => exact same _
        | cons outer rest =>
          dsimp only
          have hout : 0 < outer := hpos outer (by simp [outerOf, hd, hch])
          have c1 := writeFrame_covered e a.disk file f (offsetInFile a.geom off) outer hout hun hcov
          have hid := writeFrame_id e a.disk file f (offsetInFile a.geom off) outer
          cases hw : writeFrame e a.disk file f (offsetInFile a.geom off) outer with
          | mk file1 rest1 =>
            obtain ⟨disk1, threw1⟩ := rest1
            rw [hw] at c1 hid
            simp only at c1 hid
            rw [← hid.2.1] at c1
            cases threw1 with
            | true =>
              dsimp only
              intro file' hf'
              rw [(setFile_file _ u file1).1] at hf'; cases hf'
              have : (({ a with disk := disk1 } : Acq).setFile u file1).disk = disk1 := by cases u <;> rfl
              unfold Covered; rw [this]; exact c1
            | false =>
              dsimp only
              have c2 := writeParams_covered a.defs (offsetInFile a.geom off) f.params file1 disk1 c1
              have hpid := writeParams_id a.defs (offsetInFile a.geom off) f.params file1 disk1
              cases hp : writeParams a.defs (offsetInFile a.geom off) file1 disk1 f.params with
              | mk file2 rest2 =>
                obtain ⟨disk2, threw2⟩ := rest2
                rw [hp] at c2 hpid
                simp only at c2 hpid
                rw [← hpid.2.1] at c2
                have hdk : (({ a with disk := disk2 } : Acq).setFile u file2).disk = disk2 := by
                  cases u <;> rfl
                have hfl := (setFile_file ({ a with disk := disk2 } : Acq) u file2).1
                cases threw2 with
                | true =>
                  dsimp only
                  intro file' hf'
                  rw [hfl] at hf'; cases hf'
                  unfold Covered; rw [hdk]; exact c2
                | false =>
                  dsimp only
                  generalize ({ a with disk := disk2 } : Acq).setFile u file2 = g at *
                  obtain ⟨_, b2, b3, b4, _⟩ := account_same (g.publish (.write (toU64 f.number) off)) f
                  intro file' hf'
                  have : g.file u = some file' := by
                    rw [← hf']; cases u
                    · exact b2.symm
                    · exact b3.symm
                  rw [hfl] at this; cases this
                  unfold Covered; rw [b4]
                  show ∀ ds s p v, _ → g.disk.read _ _ _ = _ → _
                  rw [hdk]; exact c2

/-- All file objects are covered. -/
def AllCovered (a : Acq) : Prop := ∀ x c, a.file x = some c → Covered a c

theorem covered_of_closed {a b : Acq} {c : H5File} (h : FileOK a c) (ho : c.isOpen = false) :
    Covered b c := by
  intro ds s p v hs
  have h2 : (c.dset ds).isSome := by rw [hs]; rfl
  rw [dset_isSome_iff, h.2 ho] at h2; simp at h2

theorem createFile_covered (e : Env) (he : ∀ n, e.create n ≠ .noFile) (a : Acq) (k M : Nat)
    (hinv : Inv a) (hd : Distinct a.naming M) (c : H5File) (hc : a.current = some c) (hck : c.index < k)
    (hk : k ≤ M) (h : AllCovered a) : AllCovered (createFile e a k).1 := by
  have hcr := createFile_created e a k
  obtain ⟨c1, h1, h2, h3⟩ := hcr.cur
  rcases h3 with h3 | ⟨_, h4, _, _, h6, _⟩
  · exact absurd h3.1 (he _)
  · intro x c' hx
    cases x with
    | false =>
      have : some c1 = some c' := h1.symm.trans hx
      cases this
      intro ds s p v _ hr
      rw [h6, read_truncate, if_pos h2] at hr
      simp at hr
    | true =>
      have : some c = some c' := by rw [← hc, ← hcr.prev]; exact hx
      cases this
      obtain ⟨c0, hc0, hok⟩ := hinv.cur
      rw [hc] at hc0; cases hc0
      cases ho : c.isOpen with
      | false => exact covered_of_closed hok ho
      | true =>
        intro ds s p v hs hr
        rw [h6, read_truncate, if_neg] at hr
        · exact h false c hc ds s p v hs hr
        · intro heq
          rw [(hok.1 ho).1] at heq
          have := hd c.index k (by omega) hk heq
          omega

theorem Creates.covered {e : Env} {K : Nat} {a b : Acq} (h : Creates e K a b)
    (he : ∀ n, e.create n ≠ .noFile) (M : Nat) (hK : K ≤ M) (hb : a.geom.bpf ≠ 0) (hinv : Inv a)
    (hd : Distinct a.naming M) (hcov : AllCovered a) : AllCovered b := by
  induction h with
  | refl => exact hcov
  | step a c k b hc hk hkK _ ih =>
    have hcfg := (createFile_created e a k).cfg
    exact ih (by rw [hcfg.geom]; exact hb) (createFile_inv e a k hinv hb)
      (by rw [hcfg.naming]; exact hd)
      (createFile_covered e he a k M hinv hd c hc hk (by omega) hcov)

/-- The two file objects of an ordered state have different names if both are open. -/
theorem names_differ {a : Acq} {M : Nat} (hinv : Inv a) (hd : Distinct a.naming M) (ho : Ordered a M)
    (c p : H5File) (hc : a.current = some c) (hp : a.previous = some p) (h1 : c.isOpen = true)
    (h2 : p.isOpen = true) : c.name ≠ p.name := by
  obtain ⟨c0, hc0, hM, hlt⟩ := ho
  rw [hc] at hc0; cases hc0
  obtain ⟨c0, hc0, hok⟩ := hinv.cur
  rw [hc] at hc0; cases hc0
  have := hlt p hp
  rw [(hok.1 h1).1, ((hinv.prev p hp).1 h2).1]
  intro heq
  have := hd c.index p.index hM (by omega) heq
  omega

theorem writeTo_allCovered (e : Env) (a : Acq) (f : Frame) (off : Nat) (u : Bool) (M : Nat)
    (hinv : Inv a) (hd : Distinct a.naming M) (ho : Ordered a M) (hsz : AllSized a)
    (ht : a.totalFrames = 0) (hpos : ∀ ds o, outerOf a.defs ds = some o → 0 < o)
    (h : AllCovered a) : AllCovered (writeTo e a f off u).1 := by
  have hw := writeTo_facts e a f off u
  have hs := writeTo_sizes e a f off u
  have hok : ∀ x c, a.file x = some c → FileOK a c := by
    intro x c hx
    cases x with
    | false =>
      obtain ⟨c0, hc0, hok⟩ := hinv.cur
      have : some c0 = some c := hc0.symm.trans hx
      cases this; exact hok
    | true => exact hinv.prev c hx
  have hszd : ∀ x c, a.file x = some c → Sized a c := by
    intro x c hx
    cases x
    · exact hsz.1 c hx
    · exact hsz.2 c hx
  intro x c hx
  by_cases hxu : x = u
  · subst hxu
    obtain ⟨file, h1, h2, _⟩ := hs.grows c hx
    cases hop : file.isOpen with
    | false =>
      have hk : c.isOpen = false := by rw [h2.1.2.2.1]; exact hop
      have : FileOK a c := (hok x file h1).mono h2.1 rfl (fun _ h => h)
      exact covered_of_closed this hk
    | true =>
      have hun : file.unlimited = true := by rw [(hszd x file h1).1 hop]; simp [ht]
      exact writeTo_covered e a f off x file h1 hun (hpos _) (h x file h1) c hx
  · have hxe : x = !u := by cases x <;> cases u <;> simp_all
    subst hxe
    rw [hs.other] at hx
    cases hop : c.isOpen with
    | false => exact covered_of_closed (hok _ c hx) hop
    | true =>
      intro ds s p v hds hr
      rcases hw.reads c.name ds p with hh | ⟨file, w1, w2, w3, _⟩
      · rw [hh] at hr; exact h _ c hx ds s p v hds hr
      · exfalso
        have hopf : file.isOpen = true := by
          cases ho' : file.isOpen with
          | true => rfl
          | false =>
            rw [dset_isSome_iff, (hok u file w1).2 ho'] at w3; simp at w3
        cases u with
        | true => exact names_differ hinv hd ho c file hx w1 hop hopf w2
        | false => exact names_differ hinv hd ho file c w1 hx hopf hop w2.symm

theorem getFile_ordered (e : Env) (he : ∀ n, e.create n ≠ .noFile) (a : Acq) (off M : Nat)
    (hd : Distinct a.naming M) (ho : Ordered a M) (hM : Spec.fileOf a.geom off ≤ M) :
    Ordered (getFile e a off).1 M := by
  obtain ⟨h1, h2, _⟩ := getFile_spec e a off
  by_cases hb : a.geom.bpf = 0
  · rw [h2 hb]; exact ho
  · obtain ⟨c, hc, _⟩ := id ho
    exact (h1.ordered he M (by rw [fileOf_eq _ _ hb]; exact hM) hd ho c hc).1

theorem processFrame_allCovered (e : Env) (he : ∀ n, e.create n ≠ .noFile) (a : Acq) (f : Frame)
    (M : Nat) (hinv : Inv a) (hd : Distinct a.naming M) (ho : Ordered a M) (hsz : AllSized a)
    (ht : a.totalFrames = 0) (hpos : ∀ ds o, outerOf a.defs ds = some o → 0 < o)
    (hM : ∀ off, adjustOffset f.number f.adj = some off → Spec.fileOf a.geom off ≤ M)
    (h : AllCovered a) : AllCovered (processFrame e a f).1 := by
  apply processFrame_ind e a f (fun b _ => AllCovered b)
  · exact h
  · exact fun _ => h
  · intro off _ hoff _ _ _
    obtain ⟨g1, g2, _⟩ := getFile_spec e a off
    have hb : AllCovered (getFile e a off).1 := by
      by_cases hb : a.geom.bpf = 0
      · rw [g2 hb]; exact h
      · exact g1.covered he M (by rw [fileOf_eq _ _ hb]; exact hM off hoff) hb hinv hd h
    have hbi := getFile_inv e a off hinv
    have hbo := getFile_ordered e he a off M hd ho (hM off hoff)
    have hbc := getFile_cfg e a off
    have hbs := g1.allSized hsz
    refine ⟨fun b hb' => ?_, fun b hb' => ?_, fun b u hb' => ?_⟩
    · rcases hb' with hb' | hb' <;> (rw [hb'] at hb; exact hb)
    · rw [hb'] at hb; exact hb
    · rw [hb'] at hb hbi hbo hbc hbs
      exact writeTo_allCovered e b f off u M hbi (by rw [hbc.naming]; exact hd) hbo hbs
        (by rw [hbc.total]; exact ht) (by rw [hbc.defs]; exact hpos) hb

theorem run_allCovered (e : Env) (he : ∀ n, e.create n ≠ .noFile) (M : Nat) (fs : List Frame) :
    ∀ (a : Acq), Inv a → Distinct a.naming M → Ordered a M → AllSized a → a.totalFrames = 0 →
    (∀ ds o, outerOf a.defs ds = some o → 0 < o) →
    (∀ f ∈ fs, ∀ off, adjustOffset f.number f.adj = some off → Spec.fileOf a.geom off ≤ M) →
    AllCovered a → AllCovered (run e a fs).1 := by
  induction fs with
  | nil => intro a _ _ _ _ _ _ _ h; exact h
  | cons f fs ih =>
    intro a hi hd ho hs ht hp hM h
    have hc := processFrame_cfg e a f
    exact ih (processFrame e a f).1 (processFrame_inv e a f hi) (by rw [hc.naming]; exact hd)
      (step_keeps e he a f M hi hd ho (hM f (by simp))).1 (processFrame_allSized e a f hs)
      (by rw [hc.total]; exact ht) (by rw [hc.defs]; exact hp)
      (by rw [hc.geom]; exact fun g hg => hM g (by simp [hg]))
      (processFrame_allCovered e he a f M hi hd ho hs ht hp (hM f (by simp)) h)

/-- C19: in an acquisition of unlimited length (in which no `H5Fcreate` fails), after any frames, every
value stored in one of the open files lies inside the extent of its dataset. -/
theorem C19_stored_inside_partial (e : Env) (he : ∀ n, e.create n ≠ .noFile)
    (geom : Geom) (naming : Filename.Cfg) (master : String) (defs : List DatasetDef)
    (disk : Disk) (a0 : Acq) (fs : List Frame) (M : Nat)
    (hstart : startAcquisition e (fresh geom naming master defs 0 disk) = some (a0, .ok))
    (hrank : geom.rank ≤ M) (hu : Filename.Usable naming) (hidx : M + naming.start < 1000000)
    (hM : ∀ f ∈ fs, ∀ off, adjustOffset f.number f.adj = some off → Spec.fileOf geom off ≤ M)
    (x : Bool) (file : H5File) (hx : (run e a0 fs).1.file x = some file)
    (ds : String) (s : Dset) (p v : Nat) (hs : file.dset ds = some s)
    (hr : (run e a0 fs).1.disk.read file.name ds p = some v) : p < s.dim0 := by
  have hd : Distinct naming M := fun i j hi hj h =>
    Filename.C03_partial naming i j hu (by omega) (by omega) h
  have hreach : Reachable e a0 := .start geom naming master defs 0 disk a0 hstart
  obtain ⟨hinv0, hcfg0, hprev0, c0, hc0, hci0, hopen0⟩ := start_inv e _ a0 rfl hstart
  have hord0 : Ordered a0 M := ⟨c0, hc0, by rw [hci0]; exact hrank, by rw [hprev0]; simp⟩
  have hcov0 : AllCovered a0 := by
    intro y c hy
    cases y with
    | true =>
      have : a0.previous = some c := hy
      rw [hprev0] at this; simp at this
    | false =>
      intro ds s p v _ hr
      have hcr := createFile_created e ((fresh geom naming master defs 0 disk).publish .start) geom.rank
      have hst : createFile e ((fresh geom naming master defs 0 disk).publish .start) geom.rank
          = (a0, .ok) := by
        unfold startAcquisition at hstart
        split at hstart
        · simp at hstart
        · exact Option.some.inj hstart
      rw [hst] at hcr
      obtain ⟨c1, h1, h2, h3⟩ := hcr.cur
      have : some c1 = some c := h1.symm.trans hy
      cases this
      rcases h3 with h3 | ⟨_, h4, _, _, h6, _⟩
      · exact absurd h3.1 (he _)
      · simp only at h6
        rw [h6, read_truncate, if_pos h2] at hr
        simp at hr
  have := run_allCovered e he M fs a0 hinv0 (by rw [hcfg0.naming]; exact hd) hord0 hreach.allSized
    hcfg0.total hreach.outer_pos (by rw [hcfg0.geom]; exact hM) hcov0
  exact this x file hx ds s p v hs hr

/-- C19: a frame with a non-error status has room in its dataset, whatever happened before. -/
theorem C19_room (e : Env) (a : Acq) (f : Frame) (ha : Reachable e a) (ht : a.totalFrames = 0)
    (hgood : (processFrame e a f).2.good) :
    ∃ (off c : Nat) (u : Bool) (file : H5File) (s : Dset),
      adjustOffset f.number f.adj = some off ∧ outerOf a.defs f.dataset = some c ∧
      (processFrame e a f).1.file u = some file ∧ file.index = Spec.fileOf a.geom off ∧
      file.dset f.dataset = some s ∧ (Spec.slotOf a.geom off + 1) * c ≤ s.dim0 := by
  have hinv := ha.inv
  revert hgood
  apply processFrame_ind e a f (fun b st => st.good → ∃ (off c : Nat) (u : Bool) (file : H5File) (s : Dset),
      adjustOffset f.number f.adj = some off ∧ outerOf a.defs f.dataset = some c ∧
      b.file u = some file ∧ file.index = Spec.fileOf a.geom off ∧
      file.dset f.dataset = some s ∧ (Spec.slotOf a.geom off + 1) * c ≤ s.dim0)
  · intro h; simp [Status.good] at h
  · intro _ h; simp [Status.good] at h
  · intro off hv ho hP hB hacc
    refine ⟨fun b _ h => by simp [Status.good] at h, fun b _ h => by simp [Status.good] at h, ?_⟩
    intro b u hg hgood
    have hbinv := getFile_inv e a off hinv
    have hcfg := getFile_cfg e a off
    have hspec := getFile_spec e a off
    have hsz := (getFile_spec e a off).1.allSized ha.allSized
    rw [hg] at hbinv hcfg hspec hsz
    simp only at hbinv hcfg hspec hsz
    obtain ⟨g1, g2⟩ := (Status.good_iff _).1 hgood
    obtain ⟨file, file', outer, n, s, s', w1, w2, w3, w4, w5, w6, w7, w8, w9, w10, w11, w12, w13⟩ :=
      (writeTo_sizes e b f off u).good g1 g2
    have hfile : FileOK b file ∧ Sized b file ∧ file.index = Spec.fileOf a.geom off := by
      cases u with
      | true =>
        obtain ⟨hba, hbpf, p, hp1, hp2⟩ := hspec.2.2.2.1 (by simp)
        refine ⟨hbinv.prev _ w1, hsz.2 _ w1, ?_⟩
        have : a.previous = some file := by rw [← hba]; exact w1
        rw [this] at hp1; cases hp1
        rw [hp2, fileOf_eq _ _ hbpf]
      | false =>
        obtain ⟨c, hc1, hc2⟩ := hspec.2.2.1 (by simp)
        have hw : b.current = some file := w1
        rw [hw] at hc1; cases hc1
        obtain ⟨c', hc', hok⟩ := hbinv.cur
        rw [hw] at hc'; cases hc'
        refine ⟨hok, hsz.1 _ w1, ?_⟩
        by_cases hbpf : a.geom.bpf = 0
        · have := hbinv.single (by rw [hcfg.geom]; exact hbpf) file hw
          rw [this, hcfg.geom]; simp [Spec.fileOf, hbpf]
        · rw [hc2 hbpf, fileOf_eq _ _ hbpf]
    obtain ⟨hok, hsized, hidx⟩ := hfile
    have hopen : file.isOpen = true := by
      cases ho : file.isOpen with
      | true => rfl
      | false =>
        have := hok.2 ho
        have h2 : (file.dset f.dataset).isSome := by rw [w6]; rfl
        rw [dset_isSome_iff, this] at h2; simp at h2
    have hu : file.unlimited = true := by rw [hsized.1 hopen, hcfg.total]; simp [ht]
    refine ⟨off, outer, u, file', s', ho, by rw [← hcfg.defs]; exact w3, w2, ?_, w7, ?_⟩
    · rw [w8.1.1]; exact hidx
    · rw [← slotOf_eq, ← hcfg.geom]; exact w10 hu

/-- Every file object after a frame comes from one before it, with extents that did not shrink, or is
new with a higher number. -/
theorem processFrame_grows (e : Env) (he : ∀ n, e.create n ≠ .noFile) (a : Acq) (f : Frame)
    (c : H5File) (hc : a.current = some c) :
    ∀ x file', (processFrame e a f).1.file x = some file' →
      (∃ y file, a.file y = some file ∧ Grows file file') ∨ c.index < file'.index := by
  have hcreates : ∀ K b, Creates e K a b → ∀ x file', b.file x = some file' →
      (∃ y file, a.file y = some file ∧ Grows file file') ∨ c.index < file'.index := by
    intro K b hb
    induction hb generalizing c with
    | refl => intro x file' hx; exact Or.inl ⟨x, file', hx, .refl _⟩
    | step a c0 k b hc0 hk hkK _ ih =>
      obtain rfl : c = c0 := Option.some.inj (hc.symm.trans hc0)
      have hcr := createFile_created e a k
      obtain ⟨c1, h1, h2, h3⟩ := hcr.cur
      rcases h3 with h3 | ⟨_, h4, _⟩
      · exact absurd h3.1 (he _)
      · intro x file' hx
        rcases ih c1 h1 x file' hx with ⟨y, file, hy, hg⟩ | hlt
        · cases y with
          | false =>
            have : some c1 = some file := h1.symm.trans hy
            cases this
            right; rw [hg.1.1]; omega
          | true =>
            have : a.current = some file := by rw [← hcr.prev]; exact hy
            exact Or.inl ⟨false, file, this, hg⟩
        · right; omega
  apply processFrame_ind e a f (fun b _ => ∀ x file', b.file x = some file' →
      (∃ y file, a.file y = some file ∧ Grows file file') ∨ c.index < file'.index)
  · intro x file' hx; exact Or.inl ⟨x, file', hx, .refl _⟩
  · intro _ x file' hx; exact Or.inl ⟨x, file', hx, .refl _⟩
  · intro off _ _ _ _ _
    have hg := hcreates _ _ (getFile_spec e a off).1
    refine ⟨fun b hb => ?_, fun b hb => ?_, fun b u hb => ?_⟩
    · rcases hb with hb | hb <;> (rw [hb] at hg; exact hg)
    · rw [hb] at hg; exact hg
    · rw [hb] at hg
      have hs := writeTo_sizes e b f off u
      intro x file' hx
      have : ∃ file, b.file x = some file ∧ Grows file file' := by
        by_cases hxu : x = u
        · subst hxu
          obtain ⟨file, h1, h2, _⟩ := hs.grows file' hx
          exact ⟨file, h1, h2⟩
        · have hxe : x = !u := by cases x <;> cases u <;> simp_all
          subst hxe
          rw [hs.other] at hx
          exact ⟨file', hx, .refl _⟩
      obtain ⟨file, h1, h2⟩ := this
      rcases hg x file h1 with ⟨y, file0, hy, hg0⟩ | hlt
      · exact Or.inl ⟨y, file0, hy, hg0.trans h2⟩
      · right; rw [h2.1.1]; exact hlt

/-- C19: the extent of a dataset never shrinks: for every file open before and after a frame (same
number), the extent after is at least the extent before. -/
theorem C19_extent_grows_partial (e : Env) (he : ∀ n, e.create n ≠ .noFile) (a : Acq) (f : Frame) (M : Nat)
    (ho : Ordered a M) (x y : Bool) (file file' : H5File) (hx : a.file x = some file)
    (hy : (processFrame e a f).1.file y = some file') (hsame : file'.index = file.index)
    (ds : String) (s s' : Dset) (hs : file.dset ds = some s) (hs' : file'.dset ds = some s') :
    s.dim0 ≤ s'.dim0 := by
  obtain ⟨c, hc, hcM, hlt⟩ := ho
  have hle : file.index ≤ c.index := by
    cases x with
    | false =>
      have : some c = some file := hc.symm.trans hx
      cases this; exact Nat.le_refl _
    | true => exact Nat.le_of_lt (hlt file hx)
  rcases processFrame_grows e he a f c hc y file' hy with ⟨z, file0, hz, hg⟩ | hgt
  · have h0 : file0 = file := by
      have hi : file0.index = file.index := by rw [← hsame, hg.1.1]
      cases z <;> cases x
      · exact Option.some.inj (hz.symm.trans hx)
      · have h1 : some c = some file0 := hc.symm.trans hz
        cases h1
        have := hlt file hx; omega
      · have h1 : some c = some file := hc.symm.trans hx
        cases h1
        have := hlt file0 hz; omega
      · exact Option.some.inj (hz.symm.trans hx)
    subst h0
    obtain ⟨s0, k1, k2, _⟩ := hg.2 ds s' hs'
    rw [hs] at k1; cases k1
    exact k2
  · omega

/-- Non-vacuity of C19: an unlimited acquisition, frames 0, 5, 2 into one file: extent 6, all readable. -/
example :
    let a := ((startAcquisition okEnv (fresh ⟨0, 1, 1, 0⟩ exNaming "" [exDef] 0 (fun _ => none))).getD
      (fresh ⟨0, 1, 1, 0⟩ exNaming "" [exDef] 0 (fun _ => none), .ub)).1
    let r := run okEnv a [exFrame 0 70, exFrame 5 75, exFrame 2 72]
    r.2 = [.ok, .ok, .ok] ∧ (r.1.current.bind (fun c => c.dset "data")) = some { dim0 := 6, actual := 6 } ∧
    r.1.disk.read (Filename.generate exNaming 0) "data" 5 = some 75 ∧
    r.1.disk.read (Filename.generate exNaming 0) "data" 2 = some 72 := by
  decide +kernel

end Verif.Acq
