import Verif.Lemmas.AcqProgress
import Verif.Props.Sizes
/-! Properties C08 and C09: the frame counters of an acquisition. -/
namespace Verif.Acq
open Verif.Placement

/-! ## C08 -/

theorem Creates.counters {e : Env} {K : Nat} {a b : Acq} (h : Creates e K a b) :
    b.framesWritten = a.framesWritten ∧ b.framesProcessed = a.framesProcessed := by
  induction h with
  | refl => exact ⟨rfl, rfl⟩
  | step a c k b _ _ _ _ ih =>
    have hcr := createFile_created e a k
    exact ⟨ih.1.trans hcr.written, ih.2.trans hcr.processed⟩

/-- C08: the written-frames counter never decreases, whatever frame arrives and whatever fails. -/
theorem C08_monotone (e : Env) (a : Acq) (f : Frame) :
    a.framesWritten ≤ (processFrame e a f).1.framesWritten := by
  apply processFrame_ind e a f (fun b _ => a.framesWritten ≤ b.framesWritten)
  · exact Nat.le_refl _
  · exact fun _ => Nat.le_refl _
  · intro off _ _ _ _ _
    have hc := (getFile_spec e a off).1.counters.1
    refine ⟨fun b hb => ?_, fun b hb => ?_, fun b u hb => ?_⟩
    · rcases hb with hb | hb <;> (rw [hb] at hc; exact Nat.le_of_eq hc.symm)
    · rw [hb] at hc; exact Nat.le_of_eq hc.symm
    · rw [hb] at hc
      exact Nat.le_trans (Nat.le_of_eq hc.symm) (writeTo_facts e b f off u).written

/-- C08: over a whole run. -/
theorem C08_monotone_run (e : Env) (fs : List Frame) : ∀ a : Acq,
    a.framesWritten ≤ (run e a fs).1.framesWritten := by
  induction fs with
  | nil => intro a; exact Nat.le_refl _
  | cons f fs ih => intro a; exact Nat.le_trans (C08_monotone e a f) (ih _)

/-- First local frame index of the file with a given number. -/
def baseOf (g : Geom) (index : Nat) : Nat := index / g.procs * g.fpb * g.bpf

/-- The counter is the high-water mark `H`. -/
structure HW (a : Acq) (H : Nat) (c : H5File) : Prop where
  win : Window a c
  written : a.framesWritten = H
  base : baseOf a.geom c.index ≤ H
  sizes : ∀ ds n, c.actualOf ds = some n → baseOf a.geom c.index + n ≤ H

theorem base_slot (g : Geom) (off : Nat) (hB : 0 < g.fpb) (hr : g.rank < g.procs) :
    baseOf g (Spec.fileOf g off) + Spec.slotOf g off = Spec.localIndex g off := by
  unfold baseOf
  rw [slotOf_local g off hB]
  by_cases hK : g.bpf = 0
  · simp [hK]
  · rw [if_neg hK, fileOf_local g off hB hK, div_of' _ _ _ hr]
    unfold Spec.rowOf
    have := Nat.div_add_mod (Spec.localIndex g off) (g.bpf * g.fpb)
    rw [Nat.mul_assoc, Nat.mul_comm g.fpb, Nat.mul_comm (_ / _)]
    exact this

theorem base_next (g : Geom) (off : Nat) (hB : 0 < g.fpb) (hr : g.rank < g.procs) (hK : g.bpf ≠ 0) :
    Spec.localIndex g off + 1 ≤ baseOf g (Spec.fileOf g off + g.procs) := by
  have h0 := base_slot g off hB hr
  have hs : Spec.slotOf g off < g.bpf * g.fpb := by
    rw [slotOf_local g off hB, if_neg hK]
    exact Nat.mod_lt _ (Nat.mul_pos (by omega) hB)
  unfold baseOf at *
  rw [Nat.add_div_right _ (by omega), Nat.succ_mul, Nat.add_mul, Nat.mul_comm g.fpb g.bpf]
  omega

/-- One accepted frame that counts raises the mark to its local index plus one. -/
theorem hw_step (e : Env) (a : Acq) (f : Frame) (H : Nat) (c : H5File) (hr : a.geom.rank < a.geom.procs)
    (hinv : Inv a) (h : HW a H c) (hm : a.master = "" ∨ a.master = f.dataset)
    (hout : outerOf a.defs f.dataset = some 1) (hoc : f.outerChunk = 1)
    (hgood : (processFrame e a f).2.good) :
    ∃ off, adjustOffset f.number f.adj = some off ∧ 0 < a.geom.fpb ∧
      off / a.geom.fpb % a.geom.procs = a.geom.rank ∧
      ∃ c', HW (processFrame e a f).1 (max H (Spec.localIndex a.geom off + 1)) c' ∧
        c'.index = max c.index (Spec.fileOf a.geom off) ∧
        (processFrame e a f).1.framesProcessed = a.framesProcessed + 1 ∧
        (processFrame e a f).2 = completion a.framesToWrite (processFrame e a f).1.framesWritten
          (processFrame e a f).1.framesProcessed := by
  revert hgood
  apply processFrame_ind e a f (fun b st => st.good → ∃ off, adjustOffset f.number f.adj = some off ∧
      0 < a.geom.fpb ∧ off / a.geom.fpb % a.geom.procs = a.geom.rank ∧
      ∃ c', HW b (max H (Spec.localIndex a.geom off + 1)) c' ∧
        c'.index = max c.index (Spec.fileOf a.geom off) ∧
        b.framesProcessed = a.framesProcessed + 1 ∧
        st = completion a.framesToWrite b.framesWritten b.framesProcessed)
  · intro h; simp [Status.good] at h
  · intro _ h; simp [Status.good] at h
  · intro off hv ho hP hB hacc
    refine ⟨fun b _ h => by simp [Status.good] at h, fun b _ h => by simp [Status.good] at h, ?_⟩
    intro b u hg hgood
    obtain ⟨g1, g2⟩ := (Status.good_iff _).1 hgood
    have hB' : 0 < a.geom.fpb := by omega
    have hown : off / a.geom.fpb % a.geom.procs = a.geom.rank := by
      unfold acceptsOffset at hacc
      by_cases hp : a.geom.procs > 1
      · rw [if_pos hp] at hacc; simpa using hacc
      · have : a.geom.procs = 1 := by omega
        rw [this, Nat.mod_one]; omega
    refine ⟨off, ho, hB', hown, ?_⟩
    have hcfg := getFile_cfg e a off
    have hspec := getFile_spec e a off
    have hbinv := getFile_inv e a off hinv
    have hcnt := hspec.1.counters
    have hbs := base_slot a.geom off hB' hr
    rw [hg] at hcfg hspec hcnt hbinv
    simp only at hcfg hspec hcnt hbinv
    have hcw := (writeTo_facts e b f off u).cfg
    have hgood2 := (writeTo_sizes e b f off u).good g1 g2
    obtain ⟨file, file', outer, n, s, s', w1, w2, w3, w4, w5, w6, w7, w8, w9, w10, w11, w12, w13⟩ := hgood2
    have houter : outer = 1 := by
      rw [hcfg.defs, hout] at w3; exact (Option.some.inj w3).symm
    subst houter
    rw [hoc, Nat.mul_one, hcfg.geom, slotOf_eq] at w5
    have hdef : (findDef b.defs f.dataset).isSome := by
      rw [hcfg.defs]
      unfold outerOf at hout
      cases hfd : findDef a.defs f.dataset with
      | none => rw [hfd] at hout; simp at hout
      | some d => rfl
    -- finishing, given the numbers of the current file after writing
    have finish : ∀ c' m, Window (writeTo e b f off u).1 c' →
        c'.actualOf f.dataset = some m →
        max H (baseOf a.geom c'.index + m) = max H (Spec.localIndex a.geom off + 1) →
        baseOf a.geom c'.index ≤ max H (Spec.localIndex a.geom off + 1) →
        (∀ ds n, ds ≠ f.dataset → c'.actualOf ds = some n →
          baseOf a.geom c'.index + n ≤ max H (Spec.localIndex a.geom off + 1)) →
        c'.index = max c.index (Spec.fileOf a.geom off) →
        ∃ c', HW (writeTo e b f off u).1 (max H (Spec.localIndex a.geom off + 1)) c' ∧
          c'.index = max c.index (Spec.fileOf a.geom off) ∧
          (writeTo e b f off u).1.framesProcessed = a.framesProcessed + 1 ∧
          (writeTo e b f off u).2 = completion a.framesToWrite (writeTo e b f off u).1.framesWritten
            (writeTo e b f off u).1.framesProcessed := by
      intro c' m hwin hm' hmax hbase hoth hidx
      obtain ⟨k1, k2, k3⟩ := w13 (by rw [hcfg.master]; exact hm) c' m hwin.cur hm'
      rw [hcfg.geom, hcnt.1, h.written] at k1
      refine ⟨c', ⟨hwin, ?_, ?_, ?_⟩, hidx, ?_, ?_⟩
      · rw [k1]; exact hmax
      · rw [hcw.geom, hcfg.geom]; exact hbase
      · intro ds n hn
        rw [hcw.geom, hcfg.geom]
        by_cases hds : ds = f.dataset
        · subst hds
          rw [hm'] at hn; cases hn
          rw [← hmax]; exact Nat.le_max_right _ _
        · exact hoth ds n hds hn
      · rw [k2, hcnt.2, hoc]
      · rw [k3, hcfg.toWrite]
    cases u with
    | true =>
      obtain ⟨hba, hbpf, p, hp1, hp2⟩ := hspec.2.2.2.1 (by simp)
      subst hba
      rw [fileOf_eq _ _ hbpf] at hp2
      obtain ⟨c', hwin, hgr, hact⟩ := writeTo_window e b f off true c h.win
      have hsame : ∀ ds, c'.actualOf ds = c.actualOf ds := fun ds => hact ds (Or.inl rfl)
      have hci : c'.index = c.index := hgr.1.1
      have hnext : Spec.fileOf b.geom off + b.geom.procs = c.index := by
        rcases h.win.prev with ⟨q1, _⟩ | ⟨q, q1, _, q3⟩
        · rw [q1] at hp1; simp at hp1
        · rw [q1] at hp1; cases hp1
          rw [← hp2]; exact q3
      have hle := base_next b.geom off hB' hr hbpf
      rw [hnext] at hle
      have hb := h.base
      obtain ⟨s0, hs0⟩ := Option.isSome_iff_exists.1 (h.win.full _ hdef)
      have hm0 : c.actualOf f.dataset = some s0.actual := by simp [H5File.actualOf, hs0]
      have hsz := h.sizes _ _ hm0
      refine finish c' s0.actual hwin (by rw [hsame]; exact hm0) ?_ ?_ ?_ (by rw [hci]; omega)
      · rw [hci]; omega
      · rw [hci]; omega
      · intro ds n _ hn
        rw [hsame] at hn
        have := h.sizes ds n hn
        rw [hci]; omega
    | false =>
      have hsel : (getFile e a off).2 = .cur := by rw [hg]; rfl
      have hnew := getFile_cur_ok e a off c (by omega) h.win hsel
      rw [hg] at hnew
      simp only at hnew
      have hbc : ∃ cb, Window b cb ∧ cb.index = Spec.fileOf a.geom off ∧ c.index ≤ cb.index ∧
          (∀ ds n, cb.actualOf ds = some n →
            baseOf a.geom cb.index + n ≤ max H (Spec.localIndex a.geom off + 1)) := by
        rcases hnew with hba | ⟨c1, n1, n2, n3, n4, _, _⟩
        · subst hba
          refine ⟨c, h.win, ?_, Nat.le_refl _, ?_⟩
          · by_cases hbpf : b.geom.bpf = 0
            · rw [hbinv.single hbpf c h.win.cur]; simp [Spec.fileOf, hbpf]
            · obtain ⟨c2, hc2, hc2i⟩ := hspec.2.2.1 (by simp)
              rw [h.win.cur] at hc2; cases hc2
              rw [hc2i hbpf, fileOf_eq _ _ hbpf]
          · intro ds n hn
            have := h.sizes ds n hn
            omega
        · have hbpf : a.geom.bpf ≠ 0 := by
            intro hz
            have := hspec.2.1 hz
            subst this
            have e1 := h.win.cur
            have e2 := n1.cur
            rw [e1] at e2; cases e2
            omega
          refine ⟨c1, n1, by rw [n2, fileOf_eq _ _ hbpf], by omega, ?_⟩
          intro ds n hn
          rw [n4 ds n hn, n2, fileOf_eq _ _ hbpf]
          omega
      obtain ⟨cb, hwb, hib, hle, hsb⟩ := hbc
      obtain ⟨c', hwin, hgr, hact⟩ := writeTo_window e b f off false cb hwb
      have hci : c'.index = cb.index := hgr.1.1
      have hfile : file = cb := Option.some.inj (w1.symm.trans hwb.cur)
      have hfile' : file' = c' := Option.some.inj (w2.symm.trans hwin.cur)
      subst hfile hfile'
      have hn := hsb _ _ w4
      rw [hib] at hn
      refine finish file' _ hwin w5 ?_ ?_ ?_ (by rw [hci]; omega)
      · rw [hci, hib]; omega
      · rw [hci, hib]; omega
      · intro ds n' hds hn'
        rw [hact ds (Or.inr hds)] at hn'
        rw [hci]; exact hsb ds n' hn'

/-- Highest local index plus one of a list of frames (those with an offset). -/
def Spec.highWater (g : Geom) : List Frame → Nat
  | [] => 0
  | f :: fs => max (Spec.highWater g fs)
      (match adjustOffset f.number f.adj with
       | some off => Spec.localIndex g off + 1
       | none => 0)

theorem hw_run (e : Env) (fs : List Frame) : ∀ (a : Acq) (H : Nat) (c : H5File),
    a.geom.rank < a.geom.procs → Inv a → HW a H c →
    (∀ f ∈ fs, (a.master = "" ∨ a.master = f.dataset) ∧ outerOf a.defs f.dataset = some 1 ∧
      f.outerChunk = 1) →
    (∀ s ∈ (run e a fs).2, s.good) →
    (run e a fs).1.framesWritten = max H (Spec.highWater a.geom fs) ∧
    (run e a fs).1.framesProcessed = a.framesProcessed + fs.length := by
  induction fs with
  | nil => intro a H c _ _ h _ _; simp [run, Spec.highWater, h.written]
  | cons f fs ih =>
    intro a H c hr hi h hf hs
    obtain ⟨k1, k2, k3⟩ := hf f (by simp)
    have hs0 : (processFrame e a f).2.good := hs _ (by simp [run])
    obtain ⟨off, h1, _, _, c', h2, _, h3, _⟩ := hw_step e a f H c hr hi h k1 k2 k3 hs0
    have hcfg := processFrame_cfg e a f
    obtain ⟨i1, i2⟩ := ih (processFrame e a f).1 _ c' (by rw [hcfg.geom]; exact hr)
      (processFrame_inv e a f hi) h2
      (by rw [hcfg.master, hcfg.defs]; exact fun g hg => hf g (by simp [hg]))
      (fun s hs' => hs s (by simp only [run]; exact List.mem_cons_of_mem _ hs'))
    refine ⟨?_, ?_⟩
    · show (run e (processFrame e a f).1 fs).1.framesWritten = _
      rw [i1, hcfg.geom]
      simp only [Spec.highWater, h1]
      omega
    · show (run e (processFrame e a f).1 fs).1.framesProcessed = _
      rw [i2, h3]; simp; omega

theorem start_hw (e : Env) (geom : Geom) (naming : Filename.Cfg) (master : String)
    (defs : List DatasetDef) (total : Nat) (disk : Disk) (a0 : Acq) (hr : geom.rank < geom.procs)
    (hstart : startAcquisition e (fresh geom naming master defs total disk) = some (a0, .ok)) :
    ∃ c, HW a0 0 c ∧ a0.framesProcessed = 0 := by
  obtain ⟨_, hcfg, _⟩ := start_inv e _ a0 rfl hstart
  obtain ⟨c, h1, h2, h3, h4, h5⟩ := start_window e _ a0 rfl hstart
  have hg : a0.geom = geom := hcfg.geom
  have hb : baseOf a0.geom c.index = 0 := by
    unfold baseOf
    rw [h3, hg, Nat.div_eq_of_lt hr]; simp
  refine ⟨c, ⟨h1, h4, by omega, ?_⟩, h5⟩
  intro ds n hn
  have := h2 ds n hn
  omega

/-- C08, full statement: when every frame of a run gets a non-error status and chunks hold one frame,
the counter is one more than the highest local index among the frames that count (those of the master
dataset, or all of them if none is set). False, see `C08_violated`. -/
def C08_statement : Prop :=
  ∀ (e : Env) (geom : Geom) (naming : Filename.Cfg) (master : String) (defs : List DatasetDef)
    (total : Nat) (disk : Disk) (a0 : Acq) (fs : List Frame),
    geom.rank < geom.procs →
    startAcquisition e (fresh geom naming master defs total disk) = some (a0, .ok) →
    (∀ f ∈ fs, outerOf defs f.dataset = some 1 ∧ f.outerChunk = 1) →
    (∀ s ∈ (run e a0 fs).2, s.good) →
    (run e a0 fs).1.framesWritten =
      Spec.highWater geom (fs.filter (fun f => master = "" ∨ master = f.dataset))

/-- C08 for runs in which every frame counts: no master dataset is set, or all frames belong to it.
Missing: a master dataset with frames of other datasets in between, where the claim is false. -/
theorem C08_partial (e : Env) (geom : Geom) (naming : Filename.Cfg) (master : String)
    (defs : List DatasetDef) (total : Nat) (disk : Disk) (a0 : Acq) (fs : List Frame)
    (hr : geom.rank < geom.procs)
    (hstart : startAcquisition e (fresh geom naming master defs total disk) = some (a0, .ok))
    (hch : ∀ f ∈ fs, outerOf defs f.dataset = some 1 ∧ f.outerChunk = 1)
    (hm : ∀ f ∈ fs, master = "" ∨ master = f.dataset)
    (hgood : ∀ s ∈ (run e a0 fs).2, s.good) :
    (run e a0 fs).1.framesWritten = Spec.highWater geom fs := by
  obtain ⟨hinv, hcfg, _⟩ := start_inv e _ a0 rfl hstart
  obtain ⟨c, h1, _⟩ := start_hw e geom naming master defs total disk a0 hr hstart
  have hg : a0.geom = geom := hcfg.geom
  have hd : a0.defs = defs := hcfg.defs
  have hma : a0.master = master := hcfg.master
  obtain ⟨k, _⟩ := hw_run e fs a0 0 c (by rw [hg]; exact hr) hinv h1
    (by rw [hd, hma]; exact fun f hf => ⟨hm f hf, hch f hf⟩) hgood
  rw [k, hg]; omega

/-- Witness for C08: two datasets, "data" is the master; files of ten frames. -/
def exAux : DatasetDef := { exDef with name := "aux" }
def exStartM : Acq :=
  ((startAcquisition okEnv (fresh ⟨0, 1, 10, 1⟩ exNaming "data" [exDef, exAux] 20 (fun _ => none))).getD
    (fresh ⟨0, 1, 10, 1⟩ exNaming "data" [exDef, exAux] 20 (fun _ => none), .ub)).1

theorem exStartM_eq :
    startAcquisition okEnv (fresh ⟨0, 1, 10, 1⟩ exNaming "data" [exDef, exAux] 20 (fun _ => none))
      = some (exStartM, .ok) := by
  unfold exStartM startAcquisition
  rw [if_neg (by decide)]
  rfl

/-- C08 is false of the code: a late master frame that arrives after a frame of another dataset has
opened the next file counts all frames of the current file's predecessors as written
(Acquisition.cpp:158-161 uses the current file, not the file written to). Here frame 0 and 5 are
written, the counter says 10. -/
theorem C08_violated : ¬ C08_statement := by
  intro h
  have := h okEnv ⟨0, 1, 10, 1⟩ exNaming "data" [exDef, exAux] 20 (fun _ => none) exStartM
    [exFrame 0 70, { exFrame 10 71 with dataset := "aux" }, exFrame 5 72] (by decide) exStartM_eq
    (by decide +kernel) (by unfold Status.good; decide +kernel)
  have h2 : (run okEnv exStartM
      [exFrame 0 70, { exFrame 10 71 with dataset := "aux" }, exFrame 5 72]).1.framesWritten = 10 := by
    decide +kernel
  rw [h2] at this
  exact absurd this (by decide +kernel)

/-- Non-vacuity of C08: out of order frames over two files. -/
example : (run okEnv exStartM [exFrame 0 70, exFrame 11 71, exFrame 5 72]).2 = [.ok, .ok, .ok] ∧
    (run okEnv exStartM [exFrame 0 70, exFrame 11 71, exFrame 5 72]).1.framesWritten = 12 := by
  constructor <;> decide +kernel

/-! ## C09 -/

/-- A dataset definition `create_dataset` accepts, with one frame per chunk. -/
def ValidDef (d : DatasetDef) : Prop :=
  d.chunks.head? = some 1 ∧ d.dims.any (· == 0) = false ∧ d.chunks.any (· == 0) = false ∧
  d.chunks.length = d.dims.length + 1

theorem createDataset_valid (g : Geom) (w k : Nat) (f : H5File) (d : DatasetDef)
    (h1 : d.chunks.head? = some 1) (hok : (createDataset g w k f d).2 = .ok) : ValidDef d := by
  unfold createDataset at hok
  cases hch : d.chunks with
  | nil => rw [hch] at h1; simp at h1
  | cons c cs =>
    rw [hch] at hok
    dsimp only at hok
    by_cases h2 : (d.dims.any (· == 0) || (c :: cs).any (· == 0)) = true
    · rw [if_pos h2] at hok; simp at hok
    · rw [if_neg h2] at hok
      by_cases h3 : (c :: cs).length ≠ d.dims.length + 1
      · rw [if_pos h3] at hok; simp at hok
      · simp only [Bool.or_eq_true, not_or, Bool.not_eq_true] at h2
        refine ⟨h1, h2.1, by rw [hch]; exact h2.2, ?_⟩
        rw [hch]
        exact Decidable.not_not.1 h3

theorem createDatasets_valid (g : Geom) (w k : Nat) (ds : List DatasetDef) : ∀ (f : H5File) (b),
    (∀ d ∈ ds, d.chunks.head? = some 1) →
    (createDatasets g w k f ds b).2 = .ok → ∀ d ∈ ds, ValidDef d := by
  induction ds with
  | nil => intro f b _ _ d hd; simp at hd
  | cons d ds ih =>
    have key : ∀ f b', (∀ x ∈ d :: ds, x.chunks.head? = some 1) → (match createDataset g w k f d with
        | (file', .ok) => createDatasets g w k file' ds b'
        | (file', o) => (file', o)).2 = .ok → ∀ x ∈ d :: ds, ValidDef x := by
      intro f b' h1 hok
      have hv := createDataset_valid g w k f d (h1 d (by simp))
      cases hh : createDataset g w k f d with
      | mk f' o =>
        rw [hh] at hok hv
        cases o with
        | threw => simp at hok
        | ub => simp at hok
        | ok =>
          intro x hx
          rcases List.mem_cons.1 hx with rfl | hx
          · exact hv rfl
          · exact ih f' b' (fun y hy => h1 y (by simp [hy])) hok x hx
    intro f b h1 hok
    cases b with
    | none => exact key f none h1 hok
    | some n => cases n with
      | zero => simp [createDatasets] at hok
      | succ n => exact key f _ h1 hok

theorem createDatasets_succeeds (g : Geom) (w k : Nat) (ds : List DatasetDef) : ∀ (f : H5File),
    (∀ d ∈ ds, ValidDef d) → datasetFrames g 1 w k ≠ 0 →
    (createDatasets g w k f ds none).2 = .ok := by
  induction ds with
  | nil => intro f _ _; rfl
  | cons d ds ih =>
    intro f hv hn
    obtain ⟨h1, h2, h3, h4⟩ := hv d (by simp)
    have hok : ∃ f', createDataset g w k f d = (f', .ok) := by
      unfold createDataset
      cases hch : d.chunks with
      | nil => rw [hch] at h1; simp at h1
      | cons c cs =>
        rw [hch] at h1 h3 h4
        simp at h1
        subst h1
        dsimp only
        rw [if_neg (by rw [h2, h3]; simp), if_neg (by simp only [ne_eq, Decidable.not_not]; exact h4)]
        cases f.unlimited with
        | true => exact ⟨_, rfl⟩
        | false => rw [if_neg hn]; exact ⟨_, rfl⟩
    obtain ⟨f', hf'⟩ := hok
    unfold createDatasets
    rw [hf']
    exact ih f' (fun x hx => hv x (by simp [hx])) hn

theorem createFile_succeeds (e : Env) (he : ∀ n, e.create n = .ok) (a : Acq) (k : Nat)
    (hP : 0 < a.geom.procs) (hv : ∀ d ∈ a.defs, ValidDef d)
    (hn : datasetFrames a.geom 1 a.framesToWrite k ≠ 0) : (createFile e a k).2 = .ok := by
  unfold createFile
  rw [he]
  dsimp only
  rw [if_neg (by omega)]
  exact createDatasets_succeeds _ _ _ _ _ hv hn

theorem createMissing_succeeds (e : Env) (he : ∀ n, e.create n = .ok) (j : Nat) :
    ∀ (a : Acq) (next target : Nat), target = next + j * a.geom.procs → 0 < a.geom.procs →
    (∀ d ∈ a.defs, ValidDef d) →
    (∀ i, i < j → datasetFrames a.geom 1 a.framesToWrite (next + i * a.geom.procs) ≠ 0) →
    (createMissing e a next target).2 = .ok := by
  induction j with
  | zero =>
    intro a next target ht _ _ _
    unfold createMissing
    rw [dif_neg (by omega)]
  | succ j ih =>
    intro a next target ht hP hv hn
    have hlt : next < target := by rw [ht, Nat.succ_mul]; omega
    unfold createMissing
    rw [dif_pos ⟨hlt, hP⟩]
    have hok := createFile_succeeds e he a next hP hv (by simpa using hn 0 (by omega))
    have hcr := createFile_created e a next
    cases hr : createFile e a next with
    | mk a' o =>
      rw [hr] at hok hcr
      simp only at hok hcr
      subst hok
      dsimp only
      have hg := hcr.cfg.geom
      apply ih
      · rw [hg, ht, Nat.succ_mul]; omega
      · rw [hg]; exact hP
      · rw [hcr.cfg.defs]; exact hv
      · intro i hi
        have := hn (i + 1) (by omega)
        rw [hg, hcr.cfg.toWrite]
        rw [Nat.succ_mul] at this
        rw [show next + a.geom.procs + i * a.geom.procs = next + (i * a.geom.procs + a.geom.procs) by omega]
        exact this

/-- Files up to the one of a frame within the share of the process get a non-empty dataset. -/
theorem rows_nonempty (g : Geom) (ftw off r : Nat) (hB : 0 < g.fpb) (hr : g.rank < g.procs)
    (hK : g.bpf ≠ 0) (h : Spec.localIndex g off < ftw) (hrow : r ≤ Spec.rowOf g off) :
    datasetFrames g 1 ftw (r * g.procs + g.rank) ≠ 0 := by
  have hn0 : 0 < g.bpf * g.fpb := Nat.mul_pos (by omega) hB
  obtain ⟨o, h1, h2⟩ := localIndex_surj g (r * (g.bpf * g.fpb)) hB hr
  have hrow' : Spec.rowOf g o = r := by
    unfold Spec.rowOf; rw [h2]; exact Nat.mul_div_cancel _ hn0
  have hle : Spec.localIndex g o ≤ Spec.localIndex g off := by
    rw [h2]
    unfold Spec.rowOf at hrow
    exact Nat.le_trans (Nat.mul_le_mul_right _ hrow) (Nat.div_mul_le_self _ _)
  have := datasetFrames_covers g 1 ftw o hB hr (by omega)
  rw [fileOf_local g o hB hK, hrow'] at this
  omega

/-- `get_file` succeeds for a frame within the window. -/
theorem getFile_succeeds (e : Env) (he : ∀ n, e.create n = .ok) (a : Acq) (off : Nat) (c : H5File)
    (hB : 0 < a.geom.fpb) (hr : a.geom.rank < a.geom.procs) (hw : Window a c)
    (hv : ∀ d ∈ a.defs, ValidDef d) (hoff : Spec.localIndex a.geom off < a.framesToWrite)
    (hwin : c.index ≤ Spec.fileOf a.geom off + a.geom.procs) :
    (getFile e a off).2 = .cur ∨ (getFile e a off).2 = .prev := by
  unfold getFile
  by_cases hK : a.geom.bpf = 0
  · rw [if_pos hK, hw.cur]; exact Or.inl rfl
  · rw [if_neg hK, hw.cur]
    dsimp only
    have hidx := fileOf_eq a.geom off hK
    have hloc := fileOf_local a.geom off hB hK
    obtain ⟨r, hcr⟩ := hw.rankMod hK
    by_cases h1 : fileIndex a.geom off = c.index
    · rw [if_pos h1]; exact Or.inl rfl
    · rw [if_neg h1]
      by_cases h2 : a.previous.map H5File.index = some (fileIndex a.geom off)
      · rw [if_pos h2]; exact Or.inr rfl
      · rw [if_neg h2]
        by_cases h3 : fileIndex a.geom off > c.index
        · rw [if_pos h3]
          have hrt : r < Spec.rowOf a.geom off := by
            apply Nat.lt_of_not_le
            intro hle
            have := Nat.mul_le_mul_right a.geom.procs hle
            omega
          have htj : fileIndex a.geom off
              = (c.index + a.geom.procs) + (Spec.rowOf a.geom off - r - 1) * a.geom.procs := by
            have : Spec.rowOf a.geom off = r + 1 + (Spec.rowOf a.geom off - r - 1) := by omega
            rw [hidx, hloc, hcr]
            conv => lhs; rw [this]
            rw [Nat.add_mul, Nat.add_mul, Nat.one_mul]; omega
          have hm := createMissing_succeeds e he (Spec.rowOf a.geom off - r - 1) a
            (c.index + a.geom.procs) (fileIndex a.geom off) htj (by omega) hv (by
              intro i hi
              have := rows_nonempty a.geom a.framesToWrite off (r + 1 + i) hB hr hK hoff (by omega)
              rw [hcr]
              rw [Nat.add_mul, Nat.add_mul, Nat.one_mul] at this
              rw [show r * a.geom.procs + a.geom.rank + a.geom.procs + i * a.geom.procs
                = r * a.geom.procs + a.geom.procs + i * a.geom.procs + a.geom.rank by omega]
              exact this)
          have hcm := (createMissing_creates e (fileIndex a.geom off) (c.index + a.geom.procs) a c
            hw.cur rfl h3).1.cfg
          cases hmr : createMissing e a (c.index + a.geom.procs) (fileIndex a.geom off) with
          | mk a' o =>
            rw [hmr] at hm hcm
            simp only at hm hcm
            subst hm
            dsimp only
            have hc := createFile_succeeds e he a' (fileIndex a.geom off) (by rw [hcm.geom]; omega)
              (by rw [hcm.defs]; exact hv) (by
                rw [hcm.geom, hcm.toWrite, hidx, hloc]
                exact rows_nonempty a.geom a.framesToWrite off _ hB hr hK hoff (Nat.le_refl _))
            cases hcf : createFile e a' (fileIndex a.geom off) with
            | mk a'' o =>
              rw [hcf] at hc
              simp only at hc
              subst hc
              exact Or.inl rfl
        · exfalso
          have hlt : Spec.rowOf a.geom off < r := by
            apply Nat.lt_of_not_le
            intro hle
            have := Nat.mul_le_mul_right a.geom.procs hle
            omega
          have hle : r ≤ Spec.rowOf a.geom off + 1 := by
            apply Nat.le_of_not_lt
            intro hgt
            have := Nat.mul_le_mul_right a.geom.procs hgt
            simp only [Nat.succ_mul] at this
            omega
          have hre : r = Spec.rowOf a.geom off + 1 := by omega
          subst hre
          rw [Nat.succ_mul] at hcr
          rcases hw.prev with ⟨_, q2⟩ | ⟨p, q1, _, q3⟩
          · omega
          · apply h2
            rw [q1]
            simp
            omega

/-- One frame of a complete, well-behaved acquisition: what is asked of a frame (one image each). -/
def Spec.GoodFrame (g : Geom) (defs : List DatasetDef) (master ds : String) (total : Nat) (f : Frame) :
    Prop :=
  f.dataset = ds ∧ Spec.Matches defs f ∧ f.outerChunk = 1 ∧ f.write = .ok ∧
  (∀ p ∈ f.params, (findDef defs p.name).isSome → p.ok = true) ∧
  (master = "" ∨ master = ds) ∧
  ∃ off, adjustOffset f.number f.adj = some off ∧ off < total ∧ off / g.fpb % g.procs = g.rank

/-- The offset of a frame. -/
def Spec.offsetOf (f : Frame) : Nat := (adjustOffset f.number f.adj).getD 0

/-- No frame is for a file before the predecessor of the latest file reached so far (`latest`). -/
def Spec.InWindow (g : Geom) : Nat → List Frame → Prop
  | _, [] => True
  | latest, f :: fs => latest ≤ Spec.fileOf g (Spec.offsetOf f) + g.procs ∧
      Spec.InWindow g (max latest (Spec.fileOf g (Spec.offsetOf f))) fs

/-- A good frame within the window is accepted. -/
theorem good_step (e : Env) (he : ∀ n, e.create n = .ok) (a : Acq) (f : Frame) (H : Nat) (c : H5File)
    (ds : String) (hz : a.geom.bad = false) (hr : a.geom.rank < a.geom.procs) (hinv : Inv a)
    (hsz : AllSized a) (h : HW a H c) (hv : ∀ d ∈ a.defs, ValidDef d) (ht : a.totalFrames ≠ 0)
    (hftw : a.framesToWrite = calcNumFrames a.geom a.totalFrames)
    (hf : Spec.GoodFrame a.geom a.defs a.master ds a.totalFrames f)
    (hwin : c.index ≤ Spec.fileOf a.geom (Spec.offsetOf f) + a.geom.procs) :
    (processFrame e a f).2.good := by
  have hB : 0 < a.geom.fpb := Nat.pos_of_ne_zero ((not_bad _).1 hz).2.1
  obtain ⟨f1, f2, f3, f4, f5, f6, off, f7, f8, f9⟩ := hf
  have hoff : Spec.offsetOf f = off := by simp [Spec.offsetOf, f7]
  rw [hoff] at hwin
  have hloc : Spec.localIndex a.geom off < a.framesToWrite := by
    rw [hftw]; exact localIndex_lt a.geom off _ hB hr f9 f8
  have hsel := getFile_succeeds e he a off c hB hr h.win hv hloc hwin
  have hacc : acceptsOffset a.geom off = true := by
    unfold acceptsOffset; split <;> simp [f9]
  have hcfg := getFile_cfg e a off
  have hspec := getFile_spec e a off
  have hbinv := getFile_inv e a off hinv
  have hbsz := hspec.1.allSized hsz
  have hdefd : ∀ x, (findDef a.defs x).isSome → outerOf a.defs x = some 1 := by
    intro x hx
    obtain ⟨d, hd⟩ := Option.isSome_iff_exists.1 hx
    have := (hv d (List.mem_of_find?_eq_some hd)).1
    simp [outerOf, hd, this]
  have hmd : (findDef a.defs f.dataset).isSome := by
    obtain ⟨d, hd, _⟩ := f2; rw [hd]; rfl
  -- it suffices that the write succeeds
  have key : ∀ b u, getFile e a off = (b, if u then .prev else .cur) →
      (writeTo e b f off u).2 ≠ .invalid ∧ (writeTo e b f off u).2 ≠ .ub := by
    intro b u hg
    rw [hg] at hcfg hspec hbinv hbsz
    simp only at hcfg hspec hbinv hbsz
    have hfile : ∃ file, b.file u = some file ∧ Full b.defs file ∧ Sized b file ∧ FileOK b file ∧
        file.index = Spec.fileOf a.geom off ∧ ∃ c, b.current = some c ∧ Full b.defs c := by
      cases u with
      | true =>
        obtain ⟨hba, hbpf, p, hp1, hp2⟩ := hspec.2.2.2.1 (by simp)
        subst hba
        rcases h.win.prev with ⟨q1, _⟩ | ⟨q, q1, q2, _⟩
        · rw [q1] at hp1; simp at hp1
        · rw [q1] at hp1; cases hp1
          exact ⟨p, q1, q2, hbsz.2 p q1, hbinv.prev p q1, by rw [hp2, fileOf_eq _ _ hbpf],
            c, h.win.cur, h.win.full⟩
      | false =>
        have hcur := getFile_cur_ok e a off c (by omega) h.win (by rw [hg]; rfl)
        rw [hg] at hcur
        simp only at hcur
        have hw : ∃ cb, Window b cb := by
          rcases hcur with rfl | ⟨c1, n1, _⟩
          · exact ⟨c, h.win⟩
          · exact ⟨c1, n1⟩
        obtain ⟨cb, hwb⟩ := hw
        obtain ⟨c', hc', hok⟩ := hbinv.cur
        rw [hwb.cur] at hc'; cases hc'
        refine ⟨cb, hwb.cur, hwb.full, hbsz.1 cb hwb.cur, hok, ?_, cb, hwb.cur, hwb.full⟩
        obtain ⟨c2, hc1, hc2⟩ := hspec.2.2.1 (by simp)
        rw [hwb.cur] at hc1; cases hc1
        by_cases hbpf : a.geom.bpf = 0
        · rw [hbinv.single (by rw [hcfg.geom]; exact hbpf) cb hwb.cur, hcfg.geom]
          simp [Spec.fileOf, hbpf]
        · rw [hc2 hbpf, fileOf_eq _ _ hbpf]
    obtain ⟨file, k1, k2, k3, k4, k5, cb, k6, k7⟩ := hfile
    have hroom : ∀ x, (findDef a.defs x).isSome → ∃ s, file.dset x = some s ∧
        offsetInFile b.geom off < s.dim0 := by
      intro x hx
      obtain ⟨s, hs⟩ := Option.isSome_iff_exists.1 (k2 x (by rw [hcfg.defs]; exact hx))
      refine ⟨s, hs, ?_⟩
      have hopen : file.isOpen = true := by
        cases ho : file.isOpen with
        | true => rfl
        | false =>
          have h2 : (file.dset x).isSome := by rw [hs]; rfl
          rw [dset_isSome_iff, k4.2 ho] at h2; simp at h2
      have hun : file.unlimited = false := by
        rw [k3.1 hopen, hcfg.total]; simp [ht]
      obtain ⟨ch, c1, c2, c3⟩ := k3.2 x s hs
      rw [hcfg.defs, hdefd x hx] at c1
      cases c1
      rw [c3 hun, hcfg.geom, hcfg.toWrite, k5, slotOf_eq]
      have := datasetFrames_covers a.geom 1 a.framesToWrite off hB hr (by omega)
      omega
    obtain ⟨s, hs1, hs2⟩ := hroom f.dataset hmd
    refine writeTo_ok e b f off u file s k1 hs1 (by rw [hcfg.defs]; exact hdefd _ hmd) hs2 f4 ?_ ?_
    · intro p hp hpd
      rw [hcfg.defs] at hpd
      exact ⟨f5 p hp hpd, hroom p.name hpd⟩
    · exact ⟨cb, k6, k7 _ (by rw [hcfg.defs]; exact hmd)⟩
  rw [Status.good_iff]
  unfold processFrame
  rw [if_pos ((checkFrameValid_iff _ _).2 f2), f7]
  dsimp only
  rw [if_neg (by rw [hz]; simp), if_pos hacc]
  cases hg : getFile e a off with
  | mk b sel =>
    rw [hg] at hsel
    rcases hsel with rfl | rfl
    · exact key b false (by rw [hg]; rfl)
    · exact key b true (by rw [hg]; rfl)

theorem good_run (e : Env) (he : ∀ n, e.create n = .ok) (ds : String) (fs : List Frame) :
    ∀ (a : Acq) (H : Nat) (c : H5File), a.geom.bad = false → a.geom.rank < a.geom.procs → Inv a →
    AllSized a → HW a H c → (∀ d ∈ a.defs, ValidDef d) → a.totalFrames ≠ 0 →
    a.framesToWrite = calcNumFrames a.geom a.totalFrames →
    (∀ f ∈ fs, Spec.GoodFrame a.geom a.defs a.master ds a.totalFrames f) →
    Spec.InWindow a.geom c.index fs →
    (∀ s ∈ (run e a fs).2, s.good) ∧
    (a.framesProcessed + fs.length < a.framesToWrite → .complete ∉ (run e a fs).2) ∧
    (∀ s, (run e a fs).2.getLast? = some s →
      s = completion a.framesToWrite (run e a fs).1.framesWritten (run e a fs).1.framesProcessed) := by
  induction fs with
  | nil =>
    intro a H c _ _ _ _ _ _ _ _ _ _
    exact ⟨by simp [run], by simp [run], by simp [run]⟩
  | cons f fs ih =>
    intro a H c hz hr hi hsz h hv ht hftw hf hwin
    have hg := good_step e he a f H c ds hz hr hi hsz h hv ht hftw (hf f (by simp)) hwin.1
    obtain ⟨f1, f2, f3, f4, f5, f6, _⟩ := hf f (by simp)
    have hout : outerOf a.defs f.dataset = some 1 := by
      obtain ⟨d, hd, _⟩ := f2
      have := (hv d (List.mem_of_find?_eq_some hd)).1
      simp [outerOf, hd, this]
    obtain ⟨off, s1, _, _, c', s4, s5, s6, s7⟩ :=
      hw_step e a f H c hr hi h (by rw [f1]; exact f6) hout f3 hg
    have hoff : Spec.offsetOf f = off := by simp [Spec.offsetOf, s1]
    have hcfg := processFrame_cfg e a f
    obtain ⟨i1, i2, i3⟩ := ih (processFrame e a f).1 _ c' (by rw [hcfg.geom]; exact hz)
      (by rw [hcfg.geom]; exact hr) (processFrame_inv e a f hi) (processFrame_allSized e a f hsz) s4
      (by rw [hcfg.defs]; exact hv) (by rw [hcfg.total]; exact ht)
      (by rw [hcfg.toWrite, hcfg.geom, hcfg.total]; exact hftw)
      (by rw [hcfg.geom, hcfg.defs, hcfg.master, hcfg.total]; exact fun g hg => hf g (by simp [hg]))
      (by rw [hcfg.geom, s5, ← hoff]; exact hwin.2)
    rw [hcfg.toWrite] at i2 i3
    refine ⟨?_, ?_, ?_⟩
    · intro s hs
      simp only [run, List.mem_cons] at hs
      rcases hs with rfl | hs
      · exact hg
      · exact i1 s hs
    · intro hlt
      simp only [List.length_cons] at hlt
      simp only [run, List.mem_cons, not_or]
      refine ⟨?_, i2 (by rw [s6]; omega)⟩
      rw [s7]
      unfold completion
      split
      · rw [if_neg (by rw [s6]; omega)]; simp
      · simp
    · intro s hs
      simp only [run] at hs ⊢
      cases hrest : (run e (processFrame e a f).1 fs).2 with
      | nil =>
        rw [hrest] at hs
        simp at hs
        have hnil : fs = [] := by
          cases fs with
          | nil => rfl
          | cons g gs => simp [run] at hrest
        subst hnil
        rw [← hs]; exact s7
      | cons x xs =>
        rw [hrest] at hs
        rw [List.getLast?_cons_cons] at hs
        exact i3 s (by rw [hrest]; exact hs)

theorem run_length (e : Env) (fs : List Frame) : ∀ a, (run e a fs).2.length = fs.length := by
  induction fs with
  | nil => intro a; rfl
  | cons f fs ih => intro a; simp [run, ih]

theorem run_append_status (e : Env) (xs ys : List Frame) : ∀ a,
    (run e a (xs ++ ys)).2 = (run e a xs).2 ++ (run e (run e a xs).1 ys).2 := by
  induction xs with
  | nil => intro a; rfl
  | cons x xs ih => intro a; simp [run, ih]

theorem highWater_le (g : Geom) (n : Nat) (fs : List Frame) :
    Spec.highWater g fs ≤ n ↔
      ∀ f ∈ fs, ∀ off, adjustOffset f.number f.adj = some off → Spec.localIndex g off < n := by
  induction fs with
  | nil => simp [Spec.highWater]
  | cons f fs ih =>
    simp only [Spec.highWater, List.mem_cons, forall_eq_or_imp, Nat.max_le, ih]
    constructor
    · rintro ⟨h1, h2⟩
      refine ⟨?_, h1⟩
      intro off ho
      rw [ho] at h2; exact h2
    · rintro ⟨h1, h2⟩
      refine ⟨h2, ?_⟩
      cases ho : adjustOffset f.number f.adj with
      | none => simp
      | some off => exact h1 off ho

/-- C09 for one frame per chunk and one dataset: if the library makes no errors, and the frames of the
process (those below the total that belong to its rank) arrive once each, in an order in which no frame
belongs to a file before the predecessor of the latest file reached, then every frame is accepted, the
last one is reported as "complete", and none before it is. Missing from the full claim: chunks of
several frames (where dataset sizes are wrong, C17_violated) and several datasets at once. -/
theorem C09_partial (e : Env) (he : ∀ n, e.create n = .ok)
    (geom : Geom) (naming : Filename.Cfg) (master ds : String) (defs : List DatasetDef)
    (total : Nat) (disk : Disk) (a0 : Acq) (fs : List Frame)
    (hr : geom.rank < geom.procs) (hz : geom.bad = false) (ht : total ≠ 0)
    (hstart : startAcquisition e (fresh geom naming master defs total disk) = some (a0, .ok))
    (hch : ∀ d ∈ defs, d.chunks.head? = some 1)
    (hf : ∀ f ∈ fs, Spec.GoodFrame geom defs master ds total f)
    (hnodup : (fs.map Spec.offsetOf).Nodup)
    (hall : ∀ off, off < total → off / geom.fpb % geom.procs = geom.rank → off ∈ fs.map Spec.offsetOf)
    (hne : fs ≠ [])
    (hwin : Spec.InWindow geom geom.rank fs) :
    ∃ ss, (run e a0 fs).2 = ss ++ [.complete] ∧ .complete ∉ ss ∧ ∀ s ∈ ss, s.good := by
  have hB : 0 < geom.fpb := Nat.pos_of_ne_zero ((not_bad _).1 hz).2.1
  obtain ⟨hinv, hcfg, hprev, _⟩ := start_inv e _ a0 rfl hstart
  have hreach : Reachable e a0 := .start geom naming master defs total disk a0 hstart
  obtain ⟨c, hw, hp0⟩ := start_hw e geom naming master defs total disk a0 hr hstart
  have hg : a0.geom = geom := hcfg.geom
  have hd : a0.defs = defs := hcfg.defs
  have hma : a0.master = master := hcfg.master
  have hto : a0.totalFrames = total := hcfg.total
  have hfw : a0.framesToWrite = calcNumFrames geom total := hcfg.toWrite
  have hci : c.index = geom.rank := by
    rcases hw.win.prev with ⟨_, q⟩ | ⟨p, q, _⟩
    · rw [q, hg]
    · rw [hprev] at q; simp at q
  have hvalid : ∀ d ∈ a0.defs, ValidDef d := by
    have hst : createFile e ((fresh geom naming master defs total disk).publish .start) geom.rank
        = (a0, .ok) := by
      unfold startAcquisition at hstart
      split at hstart
      · simp at hstart
      · exact Option.some.inj hstart
    rw [hd]
    have hok : (createFile e ((fresh geom naming master defs total disk).publish .start)
      geom.rank).2 = .ok := by rw [hst]
    unfold createFile at hok
    rw [he] at hok
    dsimp only at hok
    split at hok
    · simp at hok
    · exact createDatasets_valid _ _ _ _ _ _ hch hok
  -- the number of frames is the share of the process
  have hlen : fs.length = calcNumFrames geom total := by
    have hinj : ∀ x ∈ fs.map Spec.offsetOf, x < total ∧ x / geom.fpb % geom.procs = geom.rank := by
      intro x hx
      obtain ⟨f, hfm, rfl⟩ := List.mem_map.1 hx
      obtain ⟨_, _, _, _, _, _, off, o1, o2, o3⟩ := hf f hfm
      have : Spec.offsetOf f = off := by simp [Spec.offsetOf, o1]
      rw [this]; exact ⟨o2, o3⟩
    have hL : ((fs.map Spec.offsetOf).map (Spec.localIndex geom)).Nodup := by
      apply List.pairwise_map.2
      apply List.Pairwise.imp_of_mem ?_ hnodup
      intro x y hx hy hxy heq
      exact hxy (localIndex_inj geom x y hB (hinj x hx).2 (hinj y hy).2 heq)
    have h1 : ((fs.map Spec.offsetOf).map (Spec.localIndex geom)) ⊆ List.range (calcNumFrames geom total) := by
      intro l hl
      obtain ⟨x, hx, rfl⟩ := List.mem_map.1 hl
      exact List.mem_range.2 (localIndex_lt geom x total hB hr (hinj x hx).2 (hinj x hx).1)
    have h2 : List.range (calcNumFrames geom total) ⊆ ((fs.map Spec.offsetOf).map (Spec.localIndex geom)) := by
      intro l hl
      obtain ⟨o, o1, o2⟩ := localIndex_surj geom l hB hr
      have := lt_of_localIndex_lt geom o total hB hr o1 (by rw [o2]; exact List.mem_range.1 hl)
      exact List.mem_map.2 ⟨o, hall o this o1, o2⟩
    have e1 := hL.length_le_of_subset h1
    have e2 := List.nodup_range.length_le_of_subset h2
    simp at e1 e2
    omega
  -- split off the last frame
  obtain ⟨xs, f, rfl⟩ : ∃ xs f, fs = xs ++ [f] :=
    ⟨fs.dropLast, fs.getLast hne, (List.dropLast_concat_getLast hne).symm⟩
  have hfull := good_run e he ds (xs ++ [f]) a0 0 c (by rw [hg]; exact hz) (by rw [hg]; exact hr) hinv
    hreach.allSized hw hvalid (by rw [hto]; exact ht) (by rw [hfw, hg, hto])
    (by rw [hg, hd, hma, hto]; exact hf) (by rw [hg, hci]; exact hwin)
  obtain ⟨g1, _, g3⟩ := hfull
  have hwx : Spec.InWindow geom geom.rank xs := by
    have : ∀ (l : List Frame) n, Spec.InWindow geom n (l ++ [f]) → Spec.InWindow geom n l := by
      intro l
      induction l with
      | nil => intro n _; trivial
      | cons y ys ih => intro n h; exact ⟨h.1, ih _ h.2⟩
    exact this xs _ hwin
  have hpre := good_run e he ds xs a0 0 c (by rw [hg]; exact hz) (by rw [hg]; exact hr) hinv
    hreach.allSized hw hvalid (by rw [hto]; exact ht) (by rw [hfw, hg, hto])
    (by rw [hg, hd, hma, hto]; exact fun x hx => hf x (by simp [hx])) (by rw [hg, hci]; exact hwx)
  obtain ⟨p1, p2, _⟩ := hpre
  have hcounts := hw_run e (xs ++ [f]) a0 0 c (by rw [hg]; exact hr) hinv hw (by
      rw [hma, hd]
      intro x hx
      obtain ⟨f1, f2, f3, f4, f5, f6, _⟩ := hf x hx
      refine ⟨by rw [f1]; exact f6, ?_, f3⟩
      obtain ⟨d, hd', _⟩ := f2
      have := hch d (List.mem_of_find?_eq_some hd')
      simp [outerOf, hd', this]) g1
  obtain ⟨w1, w2⟩ := hcounts
  simp only [List.length_append, List.length_singleton] at hlen
  have hwater : Spec.highWater geom (xs ++ [f]) = calcNumFrames geom total := by
    apply Nat.le_antisymm
    · rw [highWater_le]
      intro x hx off ho
      obtain ⟨_, _, _, _, _, _, off', o1, o2, o3⟩ := hf x hx
      rw [ho] at o1; cases o1
      exact localIndex_lt geom off total hB hr o3 o2
    · apply Nat.le_of_not_lt
      intro hlt
      have hle : Spec.highWater geom (xs ++ [f]) ≤ calcNumFrames geom total - 1 := by omega
      rw [highWater_le] at hle
      obtain ⟨o, o1, o2⟩ := localIndex_surj geom (calcNumFrames geom total - 1) hB hr
      have hot := lt_of_localIndex_lt geom o total hB hr o1 (by omega)
      obtain ⟨x, hx, hxo⟩ := List.mem_map.1 (hall o hot o1)
      obtain ⟨_, _, _, _, _, _, off', p1, p2, p3⟩ := hf x hx
      have : Spec.offsetOf x = off' := by simp [Spec.offsetOf, p1]
      have := hle x hx off' p1
      have : off' = o := by omega
      subst this
      omega
  refine ⟨(run e a0 xs).2, ?_, p2 (by rw [hp0, hfw]; omega), p1⟩
  rw [run_append_status]
  congr 1
  simp only [run]
  congr 1
  have := g3 (processFrame e (run e a0 xs).1 f).2 (by rw [run_append_status]; simp [run])
  rw [this, w1, w2, hg, hwater, hp0, hfw]
  simp only [List.length_append, List.length_singleton]
  unfold completion
  rw [if_pos ⟨by omega, by omega⟩, if_pos (by omega)]

/-- C09, full statement: frames carry `c` images each, where `c` is the chunk of every dataset; the
frame with offset `off` holds images `off * c .. off * c + c - 1`. `C09_partial` is the case `c = 1`. -/
def C09_statement : Prop :=
  ∀ (e : Env) (geom : Geom) (naming : Filename.Cfg) (master ds : String) (defs : List DatasetDef)
    (c total : Nat) (disk : Disk) (a0 : Acq) (fs : List Frame),
    (∀ n, e.create n = .ok) → geom.rank < geom.procs → 0 < geom.fpb → total ≠ 0 →
    startAcquisition e (fresh geom naming master defs total disk) = some (a0, .ok) →
    (∀ d ∈ defs, d.chunks.head? = some c) →
    (∀ f ∈ fs, f.dataset = ds ∧ Spec.Matches defs f ∧ f.outerChunk = c ∧ f.write = .ok ∧
      f.params = [] ∧ (master = "" ∨ master = ds) ∧
      ∃ off, adjustOffset f.number f.adj = some off ∧ (off + 1) * c ≤ total ∧
        off / geom.fpb % geom.procs = geom.rank) →
    (fs.map Spec.offsetOf).Nodup →
    (∀ off, (off + 1) * c ≤ total → off / geom.fpb % geom.procs = geom.rank →
      off ∈ fs.map Spec.offsetOf) →
    fs ≠ [] → Spec.InWindow geom geom.rank fs →
    ∃ ss, (run e a0 fs).2 = ss ++ [.complete] ∧ .complete ∉ ss ∧ ∀ s ∈ ss, s.good

def exFrame2 (n p : Nat) : Frame := { exFrame n p with outerChunk := 2 }

/-- C09 is false of the code for several images per frame: two processes, blocks of one frame, two images
per frame and 6 images in all. Process 0 gets frames 0 and 2 (four images) but waits for a high-water mark
of exactly 3, so the acquisition is never reported as complete. -/
theorem C09_violated : ¬ C09_statement := by
  intro h
  obtain ⟨ss, h1, _⟩ := h okEnv ⟨0, 2, 1, 0⟩ exNaming "" "data" [exDef2] 2 6 (fun _ => none) exStart2
    [exFrame2 0 1, exFrame2 2 2] (fun _ => rfl) (by decide) (by decide) (by decide)
    (by unfold exStart2 startAcquisition
        rw [if_neg (by decide)]
        rfl)
    (by decide) (by
      intro f hf
      simp only [List.mem_cons, List.not_mem_nil, or_false] at hf
      rcases hf with rfl | rfl
      · exact ⟨rfl, ⟨exDef2, by decide⟩, rfl, rfl, rfl, Or.inl rfl, 0, by decide, by decide, by decide⟩
      · exact ⟨rfl, ⟨exDef2, by decide⟩, rfl, rfl, rfl, Or.inl rfl, 2, by decide, by decide, by decide⟩)
    (by decide) (by
      intro off h1 h2
      have : off = 0 ∨ off = 1 ∨ off = 2 := by omega
      rcases this with rfl | rfl | rfl
      · decide
      · simp at h2
      · decide) (by simp)
    (by simp [Spec.InWindow]; decide +kernel)
  have h2 : (run okEnv exStart2 [exFrame2 0 1, exFrame2 2 2]).2 = [.ok, .ok] := by decide +kernel
  rw [h2] at h1
  have := congrArg List.getLast? h1
  simp at this

/-- Completion counts frames, it does not identify them: the same last frame sent twice completes an
acquisition of two frames although frame 0 never arrived. -/
theorem C09_duplicate_completes :
    ∃ a0, startAcquisition okEnv (fresh ⟨0, 1, 1, 0⟩ exNaming "" [exDef] 2 (fun _ => none))
        = some (a0, .ok) ∧
      (run okEnv a0 [exFrame 1 5, exFrame 1 6]).2 = [.completeMissing, .complete] := by
  refine ⟨((startAcquisition okEnv (fresh ⟨0, 1, 1, 0⟩ exNaming "" [exDef] 2 (fun _ => none))).getD
    (fresh ⟨0, 1, 1, 0⟩ exNaming "" [exDef] 2 (fun _ => none), .ub)).1, ?_, by decide +kernel⟩
  unfold startAcquisition
  rw [if_neg (by decide)]
  rfl

/-- Non-vacuity of C09: rank 1 of 2, blocks of 2, files of 1 block, 10 frames; the second file's
frames arrive out of order with the first's. -/
def exStart9 : Acq :=
  ((startAcquisition okEnv (fresh ⟨1, 2, 2, 1⟩ exNaming "" [exDef] 10 (fun _ => none))).getD
    (fresh ⟨1, 2, 2, 1⟩ exNaming "" [exDef] 10 (fun _ => none), .ub)).1

example : (run okEnv exStart9 [exFrame 2 1, exFrame 7 2, exFrame 3 3, exFrame 6 4]).2
    = [.ok, .completeMissing, .completeMissing, .complete] := by decide +kernel

example : Spec.InWindow ⟨1, 2, 2, 1⟩ 1 [exFrame 2 1, exFrame 7 2, exFrame 3 3, exFrame 6 4] ∧
    [exFrame 2 1, exFrame 7 2, exFrame 3 3, exFrame 6 4].map Spec.offsetOf = [2, 7, 3, 6] ∧
    ∀ off, off < 10 → off / 2 % 2 = 1 → off ∈ [2, 7, 3, 6] := by
  refine ⟨by simp [Spec.InWindow]; decide +kernel, by decide +kernel, by decide⟩

end Verif.Acq
