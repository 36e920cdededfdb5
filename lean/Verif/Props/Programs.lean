import Verif.Model.Programs

/-
C154: the exit status of the programs. A program ends with status 0 if and only if it did what its command line and its configuration file ask.
-/
namespace Verif.Programs

namespace Spec

/-- The command line can be understood. -/
def Understood (a : Args) : Prop := a.options = .ok ∧ (a.help = true ∨ a.version = true ∨ a.logConfig = none ∨ a.logConfig = some .ok)

/-- Only information is asked for. -/
def Info (a : Args) : Prop := a.help = true ∨ a.version = true

/-- All configurations in the file can be applied. -/
def Applicable : File → Prop
  | .none => True
  | .empty => False
  | .malformed => False
  | .array l => ∀ c ∈ l, c = .applied
  | .single c => c = .applied

def count : File → Nat
  | .array l => l.length
  | .single _ => 1
  | _ => 0

/-- What is asked of the processor and the receiver can be done. -/
def Possible (a : Args) (v : Env) : Prop :=
  Understood a ∧ (Info a ∨ v.construct = .ok ∧ v.endpoint = .applied ∧ Applicable v.file ∧ v.runs = .ok)

/-- The program reports success if and only if it could do what was asked, it did it then, and it always ends with a status. -/
def Reports (a : Args) (v : Env) (r : Result) : Prop :=
  (r.exit = .status 0 ↔ Possible a v) ∧ (Possible a v → ¬ Info a → r.ran = true ∧ r.applied = count v.file) ∧ r.exit ≠ .terminate

/-- What is asked of the simulator can be done: information, or a simulation. -/
def SimPossible (s : Sim) : Prop :=
  s.options = .ok ∧ (s.logConfig = none ∨ s.logConfig = some .ok) ∧ (s.detector = true → s.libpath = true ∧ s.detectorOptions = .ok) ∧
    (s.help = true ∨ s.version = true ∨ s.detector = true ∧ s.loads = true ∧ s.setup = (.ok, true) ∧ s.simulate = .ok)

def SimInfo (s : Sim) : Prop := s.help = true ∨ s.version = true

/-- The simulator reports success if and only if it could do what was asked; it does not simulate if its options are wrong. -/
def SimReports (s : Sim) (r : Exit × Bool) : Prop :=
  (r.1 = .status 0 ↔ SimPossible s) ∧ (s.detectorOptions ≠ .ok → r.2 = false) ∧ (SimPossible s → ¬ SimInfo s → r.2 = true) ∧ r.1 ≠ .terminate

end Spec

open Spec

/-- C154. -/
def C154_statement : Prop :=
  (∀ a v, Reports a v (processorMain a v)) ∧ (∀ a v, Reports a v (receiverMain a v)) ∧ ∀ s, SimReports s (simMain s)

def okArgs : Args := ⟨.ok, false, false, none⟩

/-- The processor ends with status 0 although a configuration of its file was refused. -/
theorem C154_processor_violated : ¬ ∀ a v, Reports a v (processorMain a v) := by
  intro h
  have h1 := (h okArgs ⟨.ok, .applied, .array [.throws .runtime], .ok⟩).1
  have e : (processorMain okArgs ⟨.ok, .applied, .array [.throws .runtime], .ok⟩).exit = .status 0 := by decide
  have h2 := (h1.mp e).2
  rcases h2 with h2 | h2
  · simp [Info, okArgs] at h2
  · have := h2.2.2.1 _ (List.mem_singleton.mpr rfl)
    cases this

/-- So does the receiver, which does not look at the reply of its controller. -/
theorem C154_receiver_violated : ¬ ∀ a v, Reports a v (receiverMain a v) := by
  intro h
  have h1 := (h okArgs ⟨.ok, .applied, .single .refused, .ok⟩).1
  have e : (receiverMain okArgs ⟨.ok, .applied, .single .refused, .ok⟩).exit = .status 0 := by decide
  have h2 := (h1.mp e).2
  rcases h2 with h2 | h2
  · simp [Info, okArgs] at h2
  · have := h2.2.2.1
    cases this

/-- A simulator whose library is missing. -/
def noLibrary : Sim := ⟨.ok, none, false, false, true, true, false, .throws .std, (.ok, true), .ok⟩

/-- A simulator whose plugin fails in its setup. -/
def noSetup : Sim := ⟨.ok, none, false, false, true, true, true, .ok, (.ok, false), .ok⟩

/-- A simulator with an option that is given twice, behind the address and the ports (C200_twice; a value that cannot be converted ends in `setup`, C200_wrong). -/
def givenTwice : Sim := ⟨.ok, none, false, false, true, true, true, .throws .std, (.ok, true), .ok⟩

/-- A simulator that is asked for help. -/
def askHelp : Sim := ⟨.ok, none, true, false, false, false, false, .ok, (.ok, true), .ok⟩

/-- The simulator ends with status 0 if its library is missing or the setup fails, with status 1 if it was asked for help, and simulates with the options up to there if one is given twice. -/
theorem C154_simulator_violated : simMain noLibrary = (.status 0, false) ∧ ¬ SimPossible noLibrary ∧
    simMain askHelp = (.status 1, false) ∧ SimPossible askHelp ∧ simMain givenTwice = (.status 0, true) ∧ ¬ SimPossible givenTwice ∧
    simMain noSetup = (.status 0, false) ∧ ¬ SimPossible noSetup := by
  refine ⟨by decide, ?_, by decide, ?_, by decide, ?_, by decide, ?_⟩
  · intro h; have := (h.2.2.1 rfl).2; cases this
  · exact ⟨rfl, Or.inl rfl, fun h => (by cases h), Or.inl rfl⟩
  · intro h; have := (h.2.2.1 rfl).2; cases this
  · rintro ⟨-, -, -, h | h | h⟩
    · cases h
    · cases h
    · cases h.2.2.1

theorem C154_violated : ¬ C154_statement := fun h => C154_processor_violated h.1

/-! ### What holds -/

/-- Exceptions have a type that the handlers name. -/
def Typed : Step → Prop
  | .throws .other => False
  | _ => True

theorem caught_typed (e : Exn) (h : Typed (.throws e)) : caught e = some 1 := by
  cases e <;> simp_all [Typed, caught]

/-- Every command line: what `parse_arguments` returns. -/
theorem parse_ok (a : Args) (h1 : Typed a.options) (h2 : ∀ s, a.logConfig = some s → Typed s) :
    (¬ Understood a ∧ parseArguments a = some 1) ∨ (Understood a ∧ Info a ∧ parseArguments a = some 0) ∨
      (Understood a ∧ ¬ Info a ∧ parseArguments a = some (-1)) := by
  obtain ⟨o, hp, ver, lc⟩ := a
  cases o with
  | throws e =>
    refine Or.inl ⟨fun h => (by cases h.1), ?_⟩
    exact caught_typed e h1
  | ok =>
    cases hp with
    | true => exact Or.inr (Or.inl ⟨⟨rfl, Or.inl rfl⟩, Or.inl rfl, rfl⟩)
    | false =>
      cases ver with
      | true => exact Or.inr (Or.inl ⟨⟨rfl, Or.inr (Or.inl rfl)⟩, Or.inr rfl, rfl⟩)
      | false =>
        cases lc with
        | none => exact Or.inr (Or.inr ⟨⟨rfl, Or.inr (Or.inr (Or.inl rfl))⟩, by simp [Info], rfl⟩)
        | some s =>
          cases s with
          | ok => exact Or.inr (Or.inr ⟨⟨rfl, Or.inr (Or.inr (Or.inr rfl))⟩, by simp [Info], rfl⟩)
          | throws e =>
            refine Or.inl ⟨fun h => by simp [Understood] at h, ?_⟩
            exact caught_typed e (h2 _ rfl)

/-- Submitted configurations that are applied or throw something that is not swallowed. -/
theorem submit_ok (sw : Exn → Bool) (l : List Conf) (h : ∀ c ∈ l, c = .applied ∨ ∃ e, c = .throws e ∧ sw e = false) :
    ((∀ c ∈ l, c = .applied) ∧ submit sw l = (l.length, none)) ∨
      (¬ (∀ c ∈ l, c = .applied) ∧ ∃ e, (submit sw l).2 = some e ∧ .throws e ∈ l) := by
  induction l with
  | nil => exact Or.inl ⟨by simp, rfl⟩
  | cons c l ih =>
    have ih := ih (fun x hx => h x (by simp [hx]))
    rcases h c (by simp) with rfl | ⟨e, rfl, he⟩
    · rcases ih with ⟨h1, h2⟩ | ⟨h1, e, h2, h3⟩
      · exact Or.inl ⟨by simpa using h1, by simp [submit, h2]⟩
      · exact Or.inr ⟨by simpa using h1, e, by simp [submit, h2], by simp [h3]⟩
    · refine Or.inr ⟨fun hc => ?_, e, ?_, by simp⟩
      · have := hc (.throws e) (by simp)
        cases this
      · simp only [submit]
        rw [if_neg (by simp [he])]

theorem finish_reports (catches : Exn → Bool) (n : Nat) (s : Step) (hs : ∀ e, s = .throws e → catches e = true) :
    ((finish catches n s).exit = .status 0 ↔ s = .ok) ∧ (s = .ok → (finish catches n s).ran = true ∧ (finish catches n s).applied = n) ∧
      (finish catches n s).exit ≠ .terminate := by
  cases s with
  | ok => simp [finish]
  | throws e => simp [finish, failed, hs e rfl]

/-- What the environment of a program may be for the positive results: the controller is constructed, exceptions have types, and a configuration is applied or throws. -/
structure Tame (catches swallow : Exn → Bool) (v : Env) : Prop where
  construct : v.construct = .ok
  endpoint : v.endpoint = .applied ∨ ∃ e, v.endpoint = .throws e ∧ catches e = true
  file : ∀ l, v.file = .array l → ∀ c ∈ l, c = .applied ∨ ∃ e, c = .throws e ∧ swallow e = false ∧ catches e = true
  runs : ∀ e, v.runs = .throws e → catches e = true

/-- The configurations of a file are submitted. -/
theorem file_reports (catches sw : Exn → Bool) (v : Env) (l : List Conf) (he : v.endpoint = .applied) (hc : v.construct = .ok)
    (hl : ∀ c ∈ l, c = .applied ∨ ∃ e, c = .throws e ∧ sw e = false ∧ catches e = true) (hr : ∀ e, v.runs = .throws e → catches e = true)
    (happ : Applicable v.file ↔ ∀ c ∈ l, c = .applied) (hcount : count v.file = l.length) :
    ((afterFile catches v.runs (submit sw l)).exit = .status 0 ↔ v.construct = .ok ∧ v.endpoint = .applied ∧ Applicable v.file ∧ v.runs = .ok) ∧
      ((v.construct = .ok ∧ v.endpoint = .applied ∧ Applicable v.file ∧ v.runs = .ok) →
        (afterFile catches v.runs (submit sw l)).ran = true ∧ (afterFile catches v.runs (submit sw l)).applied = count v.file) ∧
      (afterFile catches v.runs (submit sw l)).exit ≠ .terminate := by
  rcases submit_ok sw l (fun c hc => by rcases hl c hc with h | ⟨e, h1, h2, _⟩; exact Or.inl h; exact Or.inr ⟨e, h1, h2⟩) with ⟨h1, h2⟩ | ⟨h1, e, h2, h3⟩
  · rw [h2]
    simp only [afterFile]
    obtain ⟨f1, f2, f3⟩ := finish_reports catches l.length v.runs hr
    refine ⟨⟨fun h => ⟨hc, he, happ.mpr h1, f1.mp h⟩, fun h => f1.mpr h.2.2.2⟩, fun h => ?_, f3⟩
    rw [hcount]
    exact f2 h.2.2.2
  · have hcat : catches e = true := by
      rcases hl _ h3 with h | ⟨e', h, _, h5⟩
      · cases h
      · cases h; exact h5
    simp only [afterFile, h2, failed, hcat, if_true]
    refine ⟨⟨fun h => (by cases h), fun h => absurd (happ.mp h.2.2.1) h1⟩, fun h => absurd (happ.mp h.2.2.1) h1, fun h => by cases h⟩

theorem main_reports (run : Env → Result) (a : Args) (v : Env) (h1 : Typed a.options) (h2 : ∀ s, a.logConfig = some s → Typed s)
    (hr : ((run v).exit = .status 0 ↔ v.construct = .ok ∧ v.endpoint = .applied ∧ Applicable v.file ∧ v.runs = .ok) ∧
      ((v.construct = .ok ∧ v.endpoint = .applied ∧ Applicable v.file ∧ v.runs = .ok) → (run v).ran = true ∧ (run v).applied = count v.file) ∧
      (run v).exit ≠ .terminate) : Reports a v (mainWith run a v) := by
  rcases parse_ok a h1 h2 with ⟨hu, hp⟩ | ⟨hu, hi, hp⟩ | ⟨hu, hi, hp⟩
  · simp only [mainWith, hp]
    rw [if_neg (by decide)]
    refine ⟨⟨fun h => (by cases h), fun h => absurd h.1 hu⟩, fun h => absurd h.1 hu, fun h => by cases h⟩
  · simp only [mainWith, hp]
    rw [if_neg (by decide)]
    exact ⟨⟨fun _ => ⟨hu, Or.inl hi⟩, fun _ => rfl⟩, fun _ h => absurd hi h, fun h => by cases h⟩
  · simp only [mainWith, hp, if_true]
    refine ⟨⟨fun h => ⟨hu, Or.inr (hr.1.mp h)⟩, fun h => ?_⟩, fun h _ => ?_, hr.2.2⟩
    · rcases h.2 with h | h
      · exact absurd h hi
      · exact hr.1.mpr h
    · rcases h.2 with h | h
      · exact absurd h hi
      · exact hr.2.1 h

/-- C154 for the processor, if the file is an array of configurations none of which is refused in its reply or throws a std::runtime_error. -/
theorem C154_processor_partial (a : Args) (v : Env) (h1 : Typed a.options) (h2 : ∀ s, a.logConfig = some s → Typed s)
    (hv : Tame processorCatches processorSwallows v) (hs : ∀ c, v.file ≠ .single c) : Reports a v (processorMain a v) := by
  apply main_reports _ a v h1 h2
  simp only [processorRun, hv.construct]
  rcases hv.endpoint with he | ⟨e, he, hce⟩
  · simp only [he]
    cases hf : v.file with
    | none =>
      obtain ⟨f1, f2, f3⟩ := finish_reports processorCatches 0 v.runs hv.runs
      exact ⟨by simpa [Applicable] using f1, fun h => f2 h.2.2.2, f3⟩
    | empty => simp [failed, processorCatches, Applicable]
    | malformed => simp [failed, processorCatches, Applicable]
    | array l =>
      have := file_reports processorCatches processorSwallows v l he hv.construct (hv.file l hf) hv.runs (by rw [hf]; exact Iff.rfl) (by rw [hf]; rfl)
      rw [hf, he, hv.construct] at this
      simp only [true_and] at this ⊢
      exact this
    | single c => exact absurd hf (hs c)
  · simp [he, failed, hce]

/-- C154 for the receiver, if no configuration is refused in its reply. -/
theorem C154_receiver_partial (a : Args) (v : Env) (h1 : Typed a.options) (h2 : ∀ s, a.logConfig = some s → Typed s)
    (hv : Tame receiverCatches (fun _ => false) v) (hs : ∀ c, v.file = .single c → c ≠ .refused) : Reports a v (receiverMain a v) := by
  apply main_reports _ a v h1 h2
  simp only [receiverRun, hv.construct]
  rcases hv.endpoint with he | ⟨e, he, hce⟩
  · simp only [he]
    cases hf : v.file with
    | none =>
      obtain ⟨f1, f2, f3⟩ := finish_reports receiverCatches 0 v.runs hv.runs
      exact ⟨by simpa [Applicable] using f1, fun h => f2 h.2.2.2, f3⟩
    | empty => simp [failed, receiverCatches, Applicable]
    | malformed => simp [failed, receiverCatches, Applicable]
    | array l =>
      have := file_reports receiverCatches (fun _ => false) v l he hv.construct (hv.file l hf) hv.runs (by rw [hf]; exact Iff.rfl) (by rw [hf]; rfl)
      rw [hf, he, hv.construct] at this
      simp only [true_and] at this ⊢
      exact this
    | single c =>
      have := file_reports receiverCatches (fun _ => false) v [c] he hv.construct
        (by intro x hx
            rw [List.mem_singleton] at hx
            subst hx
            cases x with
            | applied => exact Or.inl rfl
            | refused => exact absurd rfl (hs _ hf)
            | throws e => exact Or.inr ⟨e, rfl, rfl, rfl⟩) hv.runs (by rw [hf]; simp [Applicable]) (by rw [hf]; rfl)
      rw [hf, he, hv.construct] at this
      simp only [true_and] at this ⊢
      exact this
  · simp [he, failed, hce]

/-- C154 for the simulator: a simulation that is possible is made and ends with status 0. -/
theorem C154_simulator_partial (s : Sim) (h : SimPossible s) (hi : ¬ SimInfo s) : simMain s = (.status 0, true) := by
  obtain ⟨h1, h2, h3, h4⟩ := h
  simp only [SimInfo, not_or, Bool.not_eq_true] at hi
  rcases h4 with h4 | h4 | ⟨h4, h5, h6, h7⟩
  · rw [hi.1] at h4; cases h4
  · rw [hi.2] at h4; cases h4
  · obtain ⟨h8, h9⟩ := h3 h4
    have hp : simParse s = .plugin true := by
      rcases h2 with h2 | h2 <;> simp [simParse, h1, h2, h4, h8, h9, hi.1, simTail, hi.2, h5]
    simp [simMain, hp, h6, h7]

/-- Asked for help or its version, with options that are understood, the simulator never simulates, and ends with status 1. -/
theorem C154_simulator_info (s : Sim) (h1 : s.options = .ok) (h2 : ∀ e, s.logConfig ≠ some (.throws e)) (h3 : s.detectorOptions = .ok) (hi : SimInfo s) :
    simMain s = (.status 1, false) := by
  have hp : simParse s = .exit1 := by
    have hl : ∀ b, s.help = false → simTail s b = .exit1 := by
      intro b hh
      rcases hi with h | h
      · rw [hh] at h; cases h
      · unfold simTail; rw [if_pos h]
    have rest : (if s.detector then if s.libpath then if s.help then Parsed.exit1 else simTail s s.loads else .exit1
        else if s.help then .exit1 else simTail s false) = .exit1 := by
      cases hh : s.help with
      | true => simp
      | false => simp [hl _ hh]
    unfold simParse
    rw [h1, h3]
    cases hc : s.logConfig with
    | none => exact rest
    | some x => cases x with
      | ok => exact rest
      | throws e => exact absurd hc (h2 e)
  unfold simMain
  rw [hp]

example : SimInfo ⟨.ok, none, false, true, true, true, true, .ok, (.ok, true), .ok⟩ ∧
    simMain ⟨.ok, none, false, true, true, true, true, .ok, (.ok, true), .ok⟩ = (.status 1, false) := ⟨Or.inr rfl, by decide⟩

/-- The processor runs on after an exception of a configuration exactly if it is a `std::runtime_error`. -/
theorem C154_runs_on (e : Exn) : (processorRun ⟨.ok, .applied, .array [.throws e, .applied], .ok⟩).ran = true ↔ e = .runtime := by
  cases e <;> decide

/-- Non-vacuity: a file with two configurations, the second of which throws, and a run that ends normally. -/
example : Tame receiverCatches (fun _ => false) ⟨.ok, .applied, .array [.applied, .throws .odin], .ok⟩ ∧
    receiverMain okArgs ⟨.ok, .applied, .array [.applied, .throws .odin], .ok⟩ = ⟨.status 1, 1, false⟩ := by
  refine ⟨⟨rfl, Or.inl rfl, ?_, by simp⟩, by decide⟩
  intro l hl c hc
  simp only [File.array.injEq] at hl
  subst hl
  simp only [List.mem_cons, List.not_mem_nil, or_false] at hc
  rcases hc with rfl | rfl
  · exact Or.inl rfl
  · exact Or.inr ⟨.odin, rfl, rfl, rfl⟩

example : Tame processorCatches processorSwallows ⟨.ok, .applied, .array [.applied, .applied], .ok⟩ ∧
    processorMain okArgs ⟨.ok, .applied, .array [.applied, .applied], .ok⟩ = ⟨.status 0, 2, true⟩ := by
  refine ⟨⟨rfl, Or.inl rfl, ?_, by simp⟩, by decide⟩
  intro l hl c hc
  simp only [File.array.injEq] at hl
  subst hl
  simp at hc
  exact Or.inl hc

example : SimPossible ⟨.ok, none, false, false, true, true, true, .ok, (.ok, true), .ok⟩ := by simp [SimPossible]

end Verif.Programs
