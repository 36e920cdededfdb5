import Verif.Props.FileWriter
/-! Property C172: what the plugins behind the file writer get. -/
namespace Verif.FW
open Verif.Acq

/-- C172, full statement: every frame is passed on, unless the file writer throws. -/
def C172_statement : Prop :=
  ∀ (s : State) (e : Env) (id : List Char) (f : Frame), (step s (.frame e id f)).2.outcome = .ok → (step s (.frame e id f)).2.pushed = true

/-- What the code does: the frames passed on are those that were handed to an acquisition, whatever it thought of them, and
without an exception or undefined behaviour. -/
theorem C172_exact (s : State) (e : Env) (id : List Char) (f : Frame) :
    (step s (.frame e id f)).2.pushed = true ↔
      (step s (.frame e id f)).2.outcome = .ok ∧ (step s (.frame e id f)).2.status.isSome = true := by
  show (processFrame e s id f).2.pushed = true ↔ (processFrame e s id f).2.outcome = .ok ∧ (processFrame e s id f).2.status.isSome = true
  unfold processFrame
  generalize frameInAcquisition e s id = r
  obtain ⟨s1, b, o⟩ := r
  cases b <;> cases o <;> dsimp only
  case true.ok =>
    by_cases hw : s1.writing = true
    · rw [if_pos hw]
      generalize Acq.processFrame s1.cur.env s1.cur.acq f = q
      obtain ⟨a, st⟩ := q
      cases st <;> simp
    · rw [if_neg hw]; simp
  all_goals simp

/-- C172, proved part: while an acquisition is written, every frame of it is passed on: also those that are invalid, or belong
to other processes. -/
theorem C172_partial (s : State) (e : Env) (id : List Char) (f : Frame) (hw : s.writing = true) (h : id = [] ∨ id = s.cur.id)
    (ho : (step s (.frame e id f)).2.outcome = .ok) : (step s (.frame e id f)).2.pushed = true := by
  refine (C172_exact s e id f).2 ⟨ho, ?_⟩
  rw [(C14_own_frames_written s e id f hw h).2]
  rfl

/-- Nothing is passed on while nothing is written. -/
theorem C172_idle (s : State) (e : Env) (f : Frame) (hw : s.writing = false) : (step s (.frame e [] f)).2 = {} := by
  show (processFrame e s [] f).2 = {}
  have hin : frameInAcquisition e s [] = (s, true, .ok) := by unfold frameInAcquisition; rw [if_pos rfl]
  unfold processFrame
  rw [hin]
  dsimp only
  rw [if_neg (by rw [hw]; decide)]

/-- Nor are frames of an acquisition that is neither the current nor the next. -/
theorem C172_foreign (s : State) (e : Env) (id : List Char) (f : Frame) (h : id ≠ []) (hc : s.writing = true → id ≠ s.cur.id)
    (hn : id ≠ s.next.acqId) : (step s (.frame e id f)).2.pushed = false := by
  rw [C14_foreign_untouched e s id f h hc hn]

/-- C172 is false of the code: with the file writer in front of another plugin, that one gets frames only while a file is
written. -/
theorem C172_violated : ¬C172_statement := by
  intro h
  have h1 := h (init okEnv false (fun _ _ => none)) okEnv [] (exFrame 1 11)
  rw [C172_idle _ _ _ (by decide)] at h1
  exact absurd (h1 rfl) (by decide)

/-- Non-vacuity: frames of the acquisition are passed on, also one of another process; a foreign one is not. -/
example : (run exPlugin [.frame okEnv ['A'] (exFrame 1 11), .frame okEnv ['A'] (exFrame 2 12), .frame okEnv ['X'] (exFrame 3 13),
    .frame okEnv [] (exFrame 3 14)]).2.map (fun r => (r.status, r.pushed)) =
    [(some .ok, true), (some .invalid, true), (none, false), (some .ok, true)] := by decide +kernel

end Verif.FW
