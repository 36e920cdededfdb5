import Verif.Lemmas.AcqInv
import Verif.Props.Placement
import Verif.Props.Filename
import Verif.Props.Offset
/-! Properties C04, C05, C07 of the file writer's acquisition: what is on disk. -/
namespace Verif.Acq
open Verif.Placement

/-! ## Specification vocabulary -/

/-- The number of the file a frame offset belongs to: blocks of `fpb` frames are dealt to the
processes in turn, `bpf` consecutive blocks of a process make one file (0: all of them). -/
def Spec.fileOf (g : Geom) (off : Nat) : Nat :=
  if g.bpf = 0 then g.rank else (off / g.fpb / g.procs / g.bpf) * g.procs + g.rank

/-- The slot of a frame offset in that file. -/
def Spec.slotOf (g : Geom) (off : Nat) : Nat :=
  (if g.bpf = 0 then off / g.fpb / g.procs else off / g.fpb / g.procs % g.bpf) * g.fpb + off % g.fpb

/-- A frame agrees with the definition of its dataset. -/
def Spec.Matches (defs : List DatasetDef) (f : Frame) : Prop :=
  ∃ d, findDef defs f.dataset = some d ∧ f.dataType ≠ .rawUnknown ∧ f.dataType = d.dataType ∧
    f.compression ≠ .unknown ∧ f.compression = d.compression ∧ f.dims = d.dims

/-- Not an error. -/
def Status.good (s : Status) : Prop := s = .ok ∨ s = .complete ∨ s = .completeMissing

theorem Status.good_iff (s : Status) : s.good ↔ s ≠ .invalid ∧ s ≠ .ub := by
  cases s <;> simp [Status.good]

theorem slotOf_eq (g : Geom) (off : Nat) : offsetInFile g off = Spec.slotOf g off := by
  obtain ⟨r, P, B, K⟩ := g
  exact offsetInFile_at r P B K off

theorem fileOf_eq (g : Geom) (off : Nat) (h : g.bpf ≠ 0) : fileIndex g off = Spec.fileOf g off := by
  simp [Spec.fileOf, h, fileIndex]

theorem checkFrameValid_iff (defs : List DatasetDef) (f : Frame) :
    checkFrameValid defs f = true ↔ Spec.Matches defs f := by
  unfold checkFrameValid Spec.Matches
  cases h : findDef defs f.dataset with
  | none => simp
  | some d =>
    simp only [Option.some.injEq, exists_eq_left', Bool.and_eq_true, Bool.not_eq_true', beq_iff_eq,
      beq_eq_false_iff_ne, ne_eq]
    constructor
    · rintro ⟨⟨⟨⟨h1, h2⟩, h3⟩, h4⟩, h5⟩; exact ⟨h3, h4, h1, h2, h5⟩
    · rintro ⟨h3, h4, h1, h2, h5⟩; exact ⟨⟨⟨⟨h1, h2⟩, h3⟩, h4⟩, h5⟩

/-! ## C07 -/

/-- C07: a frame that does not match the definition of its dataset is refused with an error, and
nothing at all changes (no file is created, no content changes, no event is published). -/
theorem C07_mismatch_refused (e : Env) (a : Acq) (f : Frame) (h : ¬ Spec.Matches a.defs f) :
    processFrame e a f = (a, .invalid) := by
  unfold processFrame
  rw [if_neg]
  intro hv; exact h ((checkFrameValid_iff _ _).1 hv)

/-- C07: whenever any stored value changes, the frame matched the definition. -/
theorem C07_written_matches (e : Env) (a : Acq) (f : Frame)
    (h : (processFrame e a f).2.good ∨ (processFrame e a f).1.disk ≠ a.disk) :
    Spec.Matches a.defs f := by
  by_cases hm : Spec.Matches a.defs f
  · exact hm
  · rw [C07_mismatch_refused e a f hm] at h
    simp [Status.good] at h

/-- A dataset definition and frames for the non-vacuity examples. -/
def exDef : DatasetDef :=
  { name := "data", dataType := .raw16, dims := [2, 3], chunks := [1, 2, 3], compression := .none }

def exFrame (n : Int) (v : Nat) : Frame :=
  { number := n, adj := 0, dataset := "data", dataType := .raw16, compression := .none, dims := [2, 3],
    outerChunk := 1, payload := v, params := [], write := .ok }

def exNaming : Filename.Cfg :=
  { configured := ['r', 'u', 'n'], acqId := [], postfixStr := [], ext := ['.', 'h', '5'],
    useNumbers := true, start := 0 }

def okEnv : Env := { create := fun _ => .ok, edge := false }

/-- Non-vacuity of C07: a matching and a non-matching frame exist. -/
example : Spec.Matches [exDef] (exFrame 3 7) ∧
    ¬ Spec.Matches [exDef] { exFrame 3 7 with dims := [3, 2] } := by
  constructor
  · exact ⟨exDef, rfl, by decide, rfl, by decide, rfl, rfl⟩
  · rintro ⟨d, h, _, _, _, _, h2⟩
    have : some exDef = some d := h
    cases this; simp [exDef] at h2

/-! ## C05 -/

/-- `C05_written` from the invariant. -/
theorem C05_written_inv (e : Env) (a : Acq) (f : Frame) (hinv : Inv a)
    (hn0 : 0 ≤ f.number) (hn1 : f.number < 2 ^ 63) (hadj : f.adj < 2 ^ 62)
    (hpar : ∀ q ∈ f.params, q.name ≠ f.dataset)
    (hgood : (processFrame e a f).2.good) :
    ∃ off outer : Nat, (off : Int) = f.number + f.adj ∧ outerOf a.defs f.dataset = some outer ∧
      (a.geom.procs > 1 → Placement.Spec.owner a.geom.procs a.geom.fpb off = a.geom.rank) ∧
      (processFrame e a f).1.disk.read (a.nameOf (Spec.fileOf a.geom off)) f.dataset
        (Spec.slotOf a.geom off * outer) = some f.payload := by
  revert hgood
  apply processFrame_ind e a f (fun b st => st.good → ∃ off outer : Nat,
      (off : Int) = f.number + f.adj ∧ outerOf a.defs f.dataset = some outer ∧
      (a.geom.procs > 1 → Placement.Spec.owner a.geom.procs a.geom.fpb off = a.geom.rank) ∧
      b.disk.read (a.nameOf (Spec.fileOf a.geom off)) f.dataset
        (Spec.slotOf a.geom off * outer) = some f.payload)
  · intro h; simp [Status.good] at h
  · intro _ h; simp [Status.good] at h
  · intro off hv ho hP hB hacc
    refine ⟨fun b _ h => by simp [Status.good] at h, fun b _ h => by simp [Status.good] at h, ?_⟩
    intro b u hg hgood
    have hbinv := getFile_inv e a off hinv
    have hcfg := getFile_cfg e a off
    have hspec := getFile_spec e a off
    rw [hg] at hbinv hcfg hspec
    simp only at hbinv hcfg hspec
    obtain ⟨g1, g2⟩ := (Status.good_iff _).1 hgood
    obtain ⟨_, file, outer, w1, w2, w3, w4⟩ := (writeTo_facts e b f off u).good g1 g2
    -- the selected file
    have hfile : FileOK b file ∧ file.index = Spec.fileOf a.geom off := by
      cases u with
      | true =>
        simp only [if_true] at hspec
        obtain ⟨hba, hbpf, p, hp1, hp2⟩ := hspec.2.2.2.1 trivial
        simp [Acq.file] at w1
        refine ⟨hbinv.prev _ w1, ?_⟩
        rw [hba] at w1; rw [w1] at hp1; cases hp1
        rw [hp2, fileOf_eq _ _ hbpf]
      | false =>
        simp at hspec
        obtain ⟨c, hc1, hc2⟩ := hspec.2.2
        simp [Acq.file] at w1
        rw [w1] at hc1; cases hc1
        obtain ⟨c', hc', hok⟩ := hbinv.cur
        rw [w1] at hc'; cases hc'
        refine ⟨hok, ?_⟩
        by_cases hbpf : a.geom.bpf = 0
        · have := hbinv.single (by rw [hcfg.geom]; exact hbpf) file w1
          rw [this, hcfg.geom]; simp [Spec.fileOf, hbpf]
        · rw [hc2 hbpf, fileOf_eq _ _ hbpf]
    obtain ⟨hok, hidx⟩ := hfile
    have hopen : file.isOpen = true := by
      cases ho : file.isOpen with
      | true => rfl
      | false =>
        have := hok.2 ho
        rw [dset_isSome_iff, this] at w3; simp at w3
    obtain ⟨hname, hex⟩ := hok.1 hopen
    refine ⟨off, outer, (C06_never_wraps _ _ hn0 hn1 hadj).1 off ho, ?_, ?_, ?_⟩
    · rw [← hcfg.defs]; exact w2
    · intro hp
      unfold acceptsOffset at hacc
      rw [if_pos hp] at hacc
      simpa [Placement.Spec.owner] using hacc
    · have := w4 hex hpar
      rw [hname, hidx, hcfg.geom, slotOf_eq] at this
      simpa [Acq.nameOf, hcfg.naming] using this

/-- C05: in every reachable state, a frame that is not reported as an error is stored, at the slot and
in the file given by the placement map, when the call returns. Frame numbers are non-negative; the
frame carries no parameter that is named like its own dataset. -/
theorem C05_written (e : Env) (a : Acq) (f : Frame) (ha : Reachable e a)
    (hn0 : 0 ≤ f.number) (hn1 : f.number < 2 ^ 63) (hadj : f.adj < 2 ^ 62)
    (hpar : ∀ q ∈ f.params, q.name ≠ f.dataset)
    (hgood : (processFrame e a f).2.good) :
    ∃ off outer : Nat, (off : Int) = f.number + f.adj ∧ outerOf a.defs f.dataset = some outer ∧
      (a.geom.procs > 1 → Placement.Spec.owner a.geom.procs a.geom.fpb off = a.geom.rank) ∧
      (processFrame e a f).1.disk.read (a.nameOf (Spec.fileOf a.geom off)) f.dataset
        (Spec.slotOf a.geom off * outer) = some f.payload :=
  C05_written_inv e a f ha.inv hn0 hn1 hadj hpar hgood

/-- C05: `process_frame` never puts a value anywhere else: every value found on disk after the call
was there before, or is at the placement of this frame (its data or one of its parameters). -/
theorem C05_nowhere_else (e : Env) (a : Acq) (f : Frame) (ha : Reachable e a) (n : Name) (ds : String)
    (p v : Nat) (h : (processFrame e a f).1.disk.read n ds p = some v) :
    a.disk.read n ds p = some v ∨
    ∃ off outer : Nat, adjustOffset f.number f.adj = some off ∧
      n = a.nameOf (Spec.fileOf a.geom off) ∧
      ((ds = f.dataset ∧ outerOf a.defs f.dataset = some outer ∧ p = Spec.slotOf a.geom off * outer) ∨
       ((∃ q ∈ f.params, q.name = ds) ∧ p = Spec.slotOf a.geom off)) := by
  have hinv := ha.inv
  revert h
  -- creating files only removes values
  have hcreate : ∀ K b, Creates e K a b → b.disk.read n ds p = some v → a.disk.read n ds p = some v := by
    intro K b hb
    clear hinv ha
    induction hb with
    | refl => exact id
    | step a c k b hc hk hK _ ih =>
      intro h
      have := ih h
      obtain ⟨c, _, _, h3⟩ := (createFile_created e a k).cur
      rcases h3 with h3 | h3
      · rw [h3.2.2.2.2.2.1] at this; exact this
      · rw [h3.2.2.2.2.1, read_truncate] at this
        split at this
        · simp at this
        · exact this
  apply processFrame_ind e a f (fun b _ => b.disk.read n ds p = some v → a.disk.read n ds p = some v ∨
    ∃ off outer : Nat, adjustOffset f.number f.adj = some off ∧
      n = a.nameOf (Spec.fileOf a.geom off) ∧
      ((ds = f.dataset ∧ outerOf a.defs f.dataset = some outer ∧ p = Spec.slotOf a.geom off * outer) ∨
       ((∃ q ∈ f.params, q.name = ds) ∧ p = Spec.slotOf a.geom off)))
  · exact Or.inl
  · exact fun _ => Or.inl
  · intro off hv ho hP hB hacc
    have hbinv := getFile_inv e a off hinv
    have hcfg := getFile_cfg e a off
    have hspec := getFile_spec e a off
    refine ⟨fun b hb h => ?_, fun b hb h => ?_, ?_⟩
    · left
      rcases hb with hb | hb <;> (rw [hb] at hspec; exact hcreate _ _ hspec.1 h)
    · left; rw [hb] at hspec; exact hcreate _ _ hspec.1 h
    intro b u hg h
    rw [hg] at hbinv hcfg hspec
    simp only at hbinv hcfg hspec
    rcases (writeTo_facts e b f off u).reads n ds p with hr | ⟨file, w1, w2, w3, w4⟩
    · left; rw [hr] at h; exact hcreate _ _ hspec.1 h
    · right
      have hfile : FileOK b file ∧ file.index = Spec.fileOf a.geom off := by
        cases u with
        | true =>
          simp only [if_true] at hspec
          obtain ⟨hba, hbpf, p, hp1, hp2⟩ := hspec.2.2.2.1 trivial
          simp [Acq.file] at w1
          refine ⟨hbinv.prev _ w1, ?_⟩
          rw [hba] at w1; rw [w1] at hp1; cases hp1
          rw [hp2, fileOf_eq _ _ hbpf]
        | false =>
          simp at hspec
          obtain ⟨c, hc1, hc2⟩ := hspec.2.2
          simp [Acq.file] at w1
          rw [w1] at hc1; cases hc1
          obtain ⟨c', hc', hok⟩ := hbinv.cur
          rw [w1] at hc'; cases hc'
          refine ⟨hok, ?_⟩
          by_cases hbpf : a.geom.bpf = 0
          · have := hbinv.single (by rw [hcfg.geom]; exact hbpf) file w1
            rw [this, hcfg.geom]; simp [Spec.fileOf, hbpf]
          · rw [hc2 hbpf, fileOf_eq _ _ hbpf]
      obtain ⟨hok, hidx⟩ := hfile
      have hopen : file.isOpen = true := by
        cases ho : file.isOpen with
        | true => rfl
        | false =>
          have := hok.2 ho
          rw [dset_isSome_iff, this] at w3; simp at w3
      obtain ⟨hname, _⟩ := hok.1 hopen
      have hn : n = a.nameOf (Spec.fileOf a.geom off) := by
        rw [w2, hname, hidx]; simp [Acq.nameOf, hcfg.naming]
      rcases w4 with ⟨d1, outer, d2, d3⟩ | ⟨d1, d2⟩
      · refine ⟨off, outer, ho, hn, Or.inl ⟨d1, ?_, ?_⟩⟩
        · rw [← hcfg.defs]; exact d2
        · rw [d3, hcfg.geom, slotOf_eq]
      · refine ⟨off, 0, ho, hn, Or.inr ⟨d1, ?_⟩⟩
        rw [d2, hcfg.geom, slotOf_eq]

/-- C05: a frame for a file that is neither the current nor the previous one and lies before the
current one is reported as an error and changes nothing. -/
theorem C05_too_old (e : Env) (a : Acq) (f : Frame) (off : Nat) (c : H5File)
    (hoff : adjustOffset f.number f.adj = some off) (hz : a.geom.bad = false)
    (hK : a.geom.bpf ≠ 0) (hc : a.current = some c) (hold : Spec.fileOf a.geom off < c.index)
    (hprev : ∀ p, a.previous = some p → p.index ≠ Spec.fileOf a.geom off) :
    processFrame e a f = (a, .invalid) := by
  rw [← fileOf_eq _ _ hK] at hold hprev
  unfold processFrame
  by_cases hv : checkFrameValid a.defs f = true
  · rw [if_pos hv, hoff]
    dsimp only
    rw [if_neg (by rw [hz]; simp)]
    by_cases hacc : acceptsOffset a.geom off = true
    · rw [if_pos hacc]
      have hnull : getFile e a off = (a, .null) := by
        unfold getFile
        rw [if_neg hK, hc]
        dsimp only
        rw [if_neg (by omega), if_neg, if_neg (by omega)]
        intro h
        cases hp : a.previous with
        | none => rw [hp] at h; simp at h
        | some p => rw [hp] at h; exact hprev p hp (by simpa using h)
      rw [hnull]
    · rw [if_neg hacc]
  · rw [if_neg hv]

/-- Non-vacuity of C05: a run that opens three files, then gets a frame for the first one. -/
def exStart : Acq :=
  ((startAcquisition okEnv (fresh ⟨0, 1, 1, 1⟩ exNaming "" [exDef] 10 (fun _ => none))).getD
    (fresh ⟨0, 1, 1, 1⟩ exNaming "" [exDef] 10 (fun _ => none), .ub)).1

theorem exStart_reachable : Reachable okEnv exStart :=
  .start ⟨0, 1, 1, 1⟩ exNaming "" [exDef] 10 (fun _ => none) exStart (by
    unfold exStart startAcquisition
    rw [if_neg (by decide)]
    rfl)

example : (run okEnv exStart [exFrame 0 70, exFrame 2 72, exFrame 1 71, exFrame 0 99]).2
    = [.ok, .ok, .ok, .invalid] := by decide +kernel

end Verif.Acq
