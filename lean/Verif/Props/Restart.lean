import Verif.Props.FileWriter
/-! Property C55: starting the next acquisition automatically does not overwrite the files of the
acquisition that just ended. -/
namespace Verif.Acq

/-! ## An acquisition touches no files but its own -/

/-- `n` is not a name this acquisition can generate. -/
def Spec.Foreign (c : Filename.Cfg) (n : Name) : Prop := ∀ k, n ≠ Filename.generate c k

theorem createFile_foreign (e : Env) (a : Acq) (k : Nat) (n : Name) (h : Spec.Foreign a.naming n)
    (ds : String) (p : Nat) : (createFile e a k).1.disk.read n ds p = a.disk.read n ds p := by
  obtain ⟨c, _, _, h3⟩ := (createFile_created e a k).cur
  rcases h3 with h3 | h3
  · rw [h3.2.2.2.2.2.1]
  · rw [h3.2.2.2.2.1, read_truncate, if_neg (h k)]

theorem Creates.foreign {e : Env} {K : Nat} {a b : Acq} (hc : Creates e K a b) (n : Name)
    (h : Spec.Foreign a.naming n) (ds : String) (p : Nat) : b.disk.read n ds p = a.disk.read n ds p := by
  induction hc with
  | refl => rfl
  | step a c k b _ _ _ _ ih =>
    rw [ih (by rw [(createFile_created e a k).cfg.naming]; exact h), createFile_foreign e a k n h]

/-- A frame changes nothing outside the files of its acquisition. -/
theorem processFrame_foreign (e : Env) (a : Acq) (f : Frame) (hi : Inv a) (n : Name)
    (h : Spec.Foreign a.naming n) (ds : String) (p : Nat) :
    (processFrame e a f).1.disk.read n ds p = a.disk.read n ds p := by
  apply processFrame_ind e a f (fun b _ => b.disk.read n ds p = a.disk.read n ds p)
  · rfl
  · intro _; rfl
  · intro off _ _ _ _ _
    have hbinv := getFile_inv e a off hi
    have hcfg := getFile_cfg e a off
    have hspec := (getFile_spec e a off).1
    refine ⟨fun b hb => ?_, fun b hb => ?_, fun b u hg => ?_⟩
    · rcases hb with hb | hb <;> (rw [hb] at hspec; exact hspec.foreign n h ds p)
    · rw [hb] at hspec; exact hspec.foreign n h ds p
    · rw [hg] at hbinv hcfg hspec
      simp only at hbinv hcfg hspec
      rcases (writeTo_facts e b f off u).reads n ds p with hr | ⟨file, w1, w2, w3, _⟩
      · rw [hr]; exact hspec.foreign n h ds p
      · exfalso
        have hok : FileOK b file := by
          cases u with
          | true => exact hbinv.prev _ (by simpa [Acq.file] using w1)
          | false =>
            obtain ⟨c, hc, hok⟩ := hbinv.cur
            simp only [Acq.file, Bool.false_eq_true, if_false] at w1
            rw [w1] at hc; cases hc; exact hok
        have hopen : file.isOpen = true := by
          cases ho : file.isOpen with
          | true => rfl
          | false =>
            have := hok.2 ho
            rw [dset_isSome_iff, this] at w3; simp at w3
        have := (hok.1 hopen).1
        refine h file.index ?_
        rw [w2, this]; simp [Acq.nameOf, hcfg.naming]

theorem run_foreign (e : Env) (fs : List Frame) : ∀ a, Inv a → ∀ n, Spec.Foreign a.naming n →
    ∀ ds p, (run e a fs).1.disk.read n ds p = a.disk.read n ds p := by
  induction fs with
  | nil => intro a _ n _ ds p; rfl
  | cons f fs ih =>
    intro a hi n h ds p
    show (run e (processFrame e a f).1 fs).1.disk.read n ds p = _
    rw [ih _ (processFrame_inv e a f hi) n (by rw [(processFrame_cfg e a f).naming]; exact h),
      processFrame_foreign e a f hi n h]

end Verif.Acq

namespace Verif.Filename

/-- What the name is built from. -/
def Spec.base (c : Cfg) : List Char := if c.configured = [] then c.acqId else c.configured

theorem number6_length (n : Nat) : (number6 n).length = 6 := by
  unfold number6
  simp only [List.length_take, List.length_append, List.length_replicate]
  omega

theorem generate_base (c : Cfg) (k : Nat) (h : Spec.base c ≠ []) :
    generate c k = Spec.base c ++ c.postfixStr ++
      (if c.useNumbers then '_' :: number6 (k + c.start) else []) ++ c.ext := by
  unfold generate
  unfold Spec.base at h ⊢
  by_cases h1 : c.configured = []
  · rw [if_pos h1] at h ⊢
    simp [h1, h]
  · rw [if_neg h1]; simp [h1]

/-- Two acquisitions with the same postfix, extension and numbering mode whose names are built from
different texts never share a file name (whatever the numbers). -/
theorem generate_base_injective (c d : Cfg) (j k : Nat) (hc : Spec.base c ≠ []) (hd : Spec.base d ≠ [])
    (hp : c.postfixStr = d.postfixStr) (he : c.ext = d.ext) (hu : c.useNumbers = d.useNumbers)
    (h : generate c j = generate d k) : Spec.base c = Spec.base d := by
  rw [generate_base c j hc, generate_base d k hd, hp, he, hu] at h
  have h := List.append_cancel_right h
  have hlen : ∀ n m : Nat, (if d.useNumbers = true then '_' :: number6 n else []).length
      = (if d.useNumbers = true then '_' :: number6 m else []).length := by
    intro n m; split <;> simp [number6_length]
  have h := (List.append_inj' h (hlen _ _)).1
  exact List.append_cancel_right h

end Verif.Filename

namespace Verif.FW
open Verif.Placement Verif.Acq

/-- C55, full statement: whenever the running acquisition ends (here: on an end-of-acquisition frame; the
last frame and the timeout take the same path), everything found in its files stays there even if the next
acquisition is started. Ranges over all histories of the plugin. -/
def C55_statement : Prop :=
  ∀ (e : Env) (b : Bool) (d : String → Disk) (ops : List Op) (s : State), s = (run (init e b d) ops).1 →
    s.writing = true → ∀ (k : Nat) (ds : String) (p v : Nat),
    (s.disks s.cur.path).read (s.cur.acq.nameOf k) ds p = some v →
    ((step s (.endOfAcquisition e)).1.disks s.cur.path).read (s.cur.acq.nameOf k) ds p = some v

/-- The dataset entry used by the examples. -/
def exDsetCfg : DsetCfg :=
  { dataType := some .raw16, dims := some [2, 3], compression := some .none }

/-- No path is ever set; the next acquisition is given the file name of the running one. -/
def exOverwrite : List Op :=
  [.config [.filename ['r'], .dataset "data" exDsetCfg, .frames 3],
   .start okEnv, .frame okEnv [] (exFrame 0 70), .frame okEnv [] (exFrame 1 71),
   .config [.filename ['r']]]

/-- A path is set and the same for both; the running acquisition is named by its file name, the next one
by its acquisition id, and the two texts are equal. -/
def exOverwriteId : List Op :=
  [.config [.path "/data" true, .filename ['r'], .dataset "data" exDsetCfg, .frames 3],
   .start okEnv, .frame okEnv [] (exFrame 0 70), .frame okEnv [] (exFrame 1 71),
   .config [.path "/data" true, .acqId ['r']]]

/-- What is found at the place of frame 1 before and after the end of the acquisition. -/
def lookAround (ops : List Op) : Bool × Option Nat × Option Nat :=
  let s := (run (init okEnv false (fun _ _ => none)) ops).1
  (s.writing, (s.disks s.cur.path).read (s.cur.acq.nameOf 0) "data" 1,
    ((step s (.endOfAcquisition okEnv)).1.disks s.cur.path).read (s.cur.acq.nameOf 0) "data" 1)

theorem exOverwrite_lost : lookAround exOverwrite = (true, some 71, none) := by decide +kernel
theorem exOverwriteId_lost : lookAround exOverwriteId = (true, some 71, none) := by decide +kernel

/-- C55 is false of the code: with an empty path the comparison of the names is skipped
(FileWriterPlugin.cpp:856), and the next acquisition truncates the file just written. -/
theorem C55_violated : ¬ C55_statement := by
  intro h
  have hl := exOverwrite_lost
  simp only [lookAround, Prod.mk.injEq] at hl
  have := h okEnv false (fun _ _ => none) exOverwrite _ rfl hl.1 0 "data" 1 71 hl.2.1
  rw [hl.2.2] at this
  simp at this

/-- C55 is also false when a path is set: a file name and an acquisition id are never compared with each
other (FileWriterPlugin.cpp:858-873). -/
theorem C55_violated_id : ¬ C55_statement := by
  intro h
  have hl := exOverwriteId_lost
  simp only [lookAround, Prod.mk.injEq] at hl
  have := h okEnv false (fun _ _ => none) exOverwriteId _ rfl hl.1 0 "data" 1 71 hl.2.1
  rw [hl.2.2] at this
  simp at this

theorem stopAcquisition_disk (a : Acq) : (stopAcquisition a).disk = a.disk := by
  have h : ∀ (b : Acq) f, (closeFile b f).disk = b.disk := fun b f => (closeFile_fields b f).2.2.1
  unfold stopAcquisition
  simp only [Acq.publish, h]

/-- Stopping stores nothing and loses nothing. -/
theorem stopWriting_disks (s : State) (h : Agrees s) : (stopWriting s).disks = s.disks := by
  unfold stopWriting
  split
  · rename_i hw
    funext p
    simp only [State.setAcq, stopAcquisition_disk]
    split
    · rename_i hp; rw [hp, (h hw).2]
    · rfl
  · rfl

theorem stopWriting_naming (s : State) : (stopWriting s).naming = s.naming := by
  have h := stopWriting_settings s
  unfold State.naming
  rw [stopWriting_next, h.postfixStr, h.ext, h.useNumbers, h.firstIndex]

/-- Starting the next acquisition changes nothing but files it can name itself. -/
theorem startWriting_foreign (e : Env) (s : State) (q : String) (n : Name)
    (h : q = s.next.path → Acq.Spec.Foreign s.naming n) (ds : String) (p : Nat) :
    ((startWriting e s).1.disks q).read n ds p = (s.disks q).read n ds p := by
  unfold startWriting
  split
  · rfl
  · split
    · rfl
    · have key : ∀ r, startAcquisition e s.nextAcq = some r →
          (((s.swap e).setAcq r.1).disks q).read n ds p = (s.disks q).read n ds p := by
        intro r hr
        unfold startAcquisition at hr
        split at hr
        · simp at hr
        · have hr := Option.some.inj hr
          show ((if q = s.next.path then r.1.disk else s.disks q) : Disk).read n ds p = _
          by_cases hq : q = s.next.path
          · rw [if_pos hq, ← hr, createFile_foreign e _ _ n (h hq) ds p, hq]
            rfl
          · rw [if_neg hq]
      cases hst : startAcquisition e s.nextAcq with
      | none => rfl
      | some r =>
        obtain ⟨a, o⟩ := r
        cases o <;> exact key _ hst

/-- C55, proved part: if a path is set (or the paths differ), the postfix, the extension and the numbering
mode are those of the running acquisition, and both acquisitions are named by a file name or both by their
id, then the automatic start of the next acquisition leaves all files of the running acquisition alone.
Missing: the other cases, where the claim fails (`C55_violated`, `C55_violated_id`). -/
theorem C55_partial (e : Env) (s : State) (hs : Agrees s) (hw : s.writing = true)
    (hpath : s.next.path ≠ "" ∨ s.next.path ≠ s.cur.path)
    (hpost : s.postfixStr = s.cur.acq.naming.postfixStr)
    (hext : Filename.sanitiseExtension s.ext = s.cur.acq.naming.ext)
    (hnum : s.useNumbers = s.cur.acq.naming.useNumbers)
    (hkind : s.next.filename = [] ↔ s.cur.filename = [])
    (hcur : s.cur.filename ≠ [] ∨ s.cur.id ≠ [])
    (k : Nat) (ds : String) (p : Nat) :
    ((stopAcq e s).1.disks s.cur.path).read (s.cur.acq.nameOf k) ds p
      = (s.disks s.cur.path).read (s.cur.acq.nameOf k) ds p := by
  have hd := stopWriting_disks s hs
  have hstart : restartAllowed s = true → (s.next.filename ≠ [] ∨ s.next.acqId ≠ []) →
      ((startWriting e (stopWriting s)).1.disks s.cur.path).read (s.cur.acq.nameOf k) ds p
        = (s.disks s.cur.path).read (s.cur.acq.nameOf k) ds p := by
    intro hr hne
    rw [← hd]
    apply startWriting_foreign
    rw [stopWriting_naming, stopWriting_next]
    intro hq j hj
    have hb : Filename.Spec.base s.cur.acq.naming = Filename.Spec.base s.naming := by
      apply Filename.generate_base_injective _ _ k j _ _ hpost.symm hext.symm hnum.symm hj
      · unfold Filename.Spec.base
        split
        · rename_i h0
          rcases hcur with h | h
          · exact absurd h0 h
          · exact h
        · assumption
      · unfold Filename.Spec.base State.naming
        simp only
        split
        · rename_i h0
          rcases hne with h | h
          · exact absurd h0 h
          · exact h
        · assumption
    have hpath' : s.next.path ≠ "" := by
      rcases hpath with h | h
      · exact h
      · exact absurd hq.symm h
    unfold Filename.Spec.base State.naming at hb
    simp only at hb
    unfold restartAllowed at hr
    rw [hw, ← hq] at hr
    rw [← hq] at hpath'
    by_cases h0 : s.next.filename = []
    · have h1 := hkind.1 h0
      unfold Running.filename at h1
      rw [if_pos h0, if_pos h1] at hb
      have hid : s.next.acqId ≠ [] := by
        rcases hne with h | h
        · exact absurd h0 h
        · exact h
      simp [hpath', h0, Running.id, hb, hid] at hr
    · have h1 : ¬ s.cur.filename = [] := fun h => h0 (hkind.2 h)
      unfold Running.filename at h1
      rw [if_neg h0, if_neg h1] at hb
      simp [hpath', h0, Running.filename, hb] at hr
  unfold stopAcq
  dsimp only
  split
  · rename_i hr
    rw [stopWriting_next] at hr
    have := hstart hr.1 hr.2
    split
    · show ((stopWriting s).disks _).read _ _ _ = _
      rw [hd]
    · cases hst : startWriting e (stopWriting s) with
      | mk s2 o =>
        rw [hst] at this
        cases o <;> exact this
  · show ((stopWriting s).disks _).read _ _ _ = _
    rw [hd]

/-- C55, continued: the frames of an acquisition never touch the files of one it shares no names with. -/
theorem C55_frames_keep_foreign (e : Env) (a : Acq) (fs : List Frame) (n : Name) (ha : Reachable e a)
    (h : ∀ k, n ≠ Filename.generate a.naming k) (ds : String) (p : Nat) :
    (Acq.run e a fs).1.disk.read n ds p = a.disk.read n ds p :=
  run_foreign e fs a ha.inv n h ds p

/-- The state of every history satisfies the first hypothesis of `C55_partial`. -/
theorem C55_history (e : Env) (b : Bool) (d : String → Disk) (ops : List Op) :
    Agrees (run (init e b d) ops).1 := run_agrees ops _ (init_agrees e b d)

/-- Non-vacuity of `C55_partial`: a restart with another file name keeps what was written, one with the
same name is refused. -/
example :
    let ops (n : List Char) : List Op :=
      [.config [.path "/data" true, .filename ['r'], .dataset "data" exDsetCfg, .frames 3],
       .start okEnv, .frame okEnv [] (exFrame 0 70), .frame okEnv [] (exFrame 1 71),
       .config [.path "/data" true, .filename n]]
    lookAround (ops ['q']) = (true, some 71, some 71) ∧ lookAround (ops ['r']) = (true, some 71, some 71) ∧
    (run (init okEnv false (fun _ _ => none)) (ops ['q'] ++ [.endOfAcquisition okEnv])).1.writing = true ∧
    (run (init okEnv false (fun _ _ => none)) (ops ['r'] ++ [.endOfAcquisition okEnv])).1.writing = false := by
  decide +kernel

end Verif.FW
