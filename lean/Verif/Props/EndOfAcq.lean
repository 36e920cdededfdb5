import Verif.Props.Commands
/-
C143: the end of one acquisition does not end another.
-/
namespace Verif.FW
open Verif.Placement Verif.Acq

/-- C143 in full: an end of acquisition after a frame of one acquisition leaves the acquisition that is running by
then alone if that is another one. Ranges over all histories of the plugin. -/
def C143_statement : Prop :=
  ∀ (e : Env) (b : Bool) (d : String → Disk) (ops : List Op) (id : List Char) (f : Frame) (s : State),
    s = (step (run (init e b d) ops).1 (.frame e id f)).1 → id ≠ [] →
    (step (run (init e b d) ops).1 (.frame e id f)).2.into = some id → s.writing = true → s.cur.id ≠ id →
    (step s (.endOfAcquisition e)).1.writing = true ∧ (step s (.endOfAcquisition e)).1.cur.id = s.cur.id

/-- Two acquisitions of two frames each; the second is configured while the first is written. -/
def exSecond : List Op :=
  [.config [.path "/data" true, .filename ['r'], .dataset "data" exDsetCfg, .frames 2, .acqId ['A']],
   .start okEnv, .config [.path "/data" true, .filename ['s'], .frames 2, .acqId ['B']],
   .frame okEnv ['A'] (exFrame 0 70)]

/-- The last frame of the first acquisition starts the second; the end of the first stops the second. -/
theorem exSecond_facts :
    let s := (run (init okEnv false (fun _ _ => none)) exSecond).1
    let t := step s (.frame okEnv ['A'] (exFrame 1 71))
    t.2.into = some ['A'] ∧ t.1.writing = true ∧ t.1.cur.id = ['B'] ∧ t.1.next = {} ∧
    (step t.1 (.endOfAcquisition okEnv)).1.writing = false := by
  decide +kernel

theorem C143_violated : ¬ C143_statement := by
  intro h
  obtain ⟨h1, h2, h3, _, h5⟩ := exSecond_facts
  have := (h okEnv false (fun _ _ => none) exSecond ['A'] (exFrame 1 71) _ rfl (by decide) h1 h2
    (by rw [h3]; decide)).1
  rw [h5] at this
  cases this

/-- Nothing is running and no acquisition is named. -/
def Over (s : State) : Prop := s.writing = false ∧ s.next.acqId = []

theorem over_frame (e : Env) (s : State) (id : List Char) (f : Frame) (h : Over s) (hid : id ≠ []) :
    step s (.frame e id f) = (s, {}) := by
  simp only [step, processFrame, frameInAcquisition, if_neg hid]
  rw [if_neg (by rw [h.1]; simp), if_neg (by rw [h.2]; exact hid)]

/-- All that was to be written into the second acquisition is lost: if nothing is configured after it, then after the
end of the first no frame that names its acquisition is taken any more. -/
theorem C143_lost (e : Env) (s : State) (hw : s.writing = true) (hn : s.next.filename = [] ∧ s.next.acqId = [])
    (fs : List (Env × List Char × Frame)) (hf : ∀ x ∈ fs, x.2.1 ≠ []) :
    (run (step s (.endOfAcquisition e)).1 (fs.map fun x => .frame x.1 x.2.1 x.2.2)).2 = fs.map fun _ => {} := by
  have ho : Over (step s (.endOfAcquisition e)).1 := by
    simp only [step, hw, if_true, stopAcq]
    have h1 := stopWriting_next s
    rw [if_neg (by rw [h1]; rintro ⟨_, h | h⟩; exact h hn.1; exact h hn.2)]
    exact ⟨stopWriting_idle s, by show (stopWriting s).next.acqId = []; rw [h1]; exact hn.2⟩
  generalize (step s (.endOfAcquisition e)).1 = t at ho
  induction fs with
  | nil => rfl
  | cons x fs ih =>
    simp only [List.map_cons, run]
    rw [over_frame x.1 t x.2.1 x.2.2 ho (hf x List.mem_cons_self)]
    exact congrArg _ (ih (fun y hy => hf y (List.mem_cons_of_mem _ hy)))

/-- If the acquisition is not complete its end ends it: afterwards nothing is running, or the one configured next is. -/
theorem C143_partial (e : Env) (s : State) (hw : s.writing = true) :
    Spec.Ended s (step s (.endOfAcquisition e)).1 := by
  simp only [step, hw, if_true]
  exact stopAcq_ends e s

/-- If nothing is running an end of acquisition does nothing. -/
theorem C143_idle (e : Env) (s : State) (hw : s.writing = false) : step s (.endOfAcquisition e) = (s, {}) := by
  simp [step, hw]

/-- The files of the acquisition that is ended are closed, and it stays as it was written. -/
theorem C143_closed (e : Env) (s : State) (h : Agrees s) (hw : s.writing = true)
    (hn : s.next.filename = [] ∧ s.next.acqId = []) :
    (step s (.endOfAcquisition e)).1.cur.acq = stopAcquisition s.cur.acq ∧
      (step s (.endOfAcquisition e)).1.disks = s.disks := by
  simp only [step, hw, if_true, stopAcq]
  have h1 := stopWriting_next s
  rw [if_neg (by rw [h1]; rintro ⟨_, h | h⟩; exact h hn.1; exact h hn.2)]
  refine ⟨?_, stopWriting_disks s h⟩
  simp [stopWriting, hw, State.setAcq]

/-- An acquisition that is not complete when its end arrives, with another one configured. -/
example :
    let s := (run (init okEnv false (fun _ _ => none)) exSecond).1
    s.writing = true ∧ s.cur.id = ['A'] ∧ (step s (.endOfAcquisition okEnv)).1.writing = true ∧
      (step s (.endOfAcquisition okEnv)).1.cur.id = ['B'] := by
  decide +kernel

end Verif.FW
