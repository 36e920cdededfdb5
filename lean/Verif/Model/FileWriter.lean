import Verif.Model.Acquisition
/-
Model of the file writer plugin around the acquisitions.
Source: /repo/cpp/frameProcessor/src/FileWriterPlugin.cpp.

Simplifications:
 * The methods are atomic here (`process_frame` and `configure` hold `mutex_`); the locks themselves are
   modelled in Verif/Model/CloseTimeout.lean. `process_end_of_acquisition` and `execute` take no lock in the
   code, interleaving them inside another method is not modelled.
 * A configuration message is the list of its settings in the order in which `configure` looks at them.
   A value of the wrong type throws at that point, so the effect of such a message is the effect of a
   shorter list; the theorems are about all lists.
 * `dataset_defs_` (a `std::map`) is a list with one entry per name, in order of creation.
 * A path is its text; two texts naming one directory are different here. HDF5 version, alignment and
   call duration settings are not modelled.
-/
namespace Verif.FW
open Verif.Placement Verif.Acq

/-- The settings held by `next_acquisition_` before it is started (Acquisition.h:76-80; defaults of the
constructor, Acquisition.cpp:40-61). -/
structure Pending where
  path : String := ""
  filename : List Char := []
  acqId : List Char := []
  total : Nat := 0
  toWrite : Nat := 0
deriving Repr, DecidableEq

/-- `current_acquisition_`: the acquisition, its path and the environment it runs in (the outcome of its
file creations, see `Acq.Env`). -/
structure Running where
  env : Env
  acq : Acq
  path : String

/-- `acquisition_id_` of the current acquisition. -/
def Running.id (r : Running) : List Char := r.acq.naming.acqId
/-- `configured_filename_` of the current acquisition. -/
def Running.filename (r : Running) : List Char := r.acq.naming.configured

/-- FileWriterPlugin.h members. `disks` (contents of the directories) belongs to the environment. -/
structure State where
  writing : Bool
  geom : Geom                       -- concurrent_processes_, concurrent_rank_, frames_per_block_, blocks_per_file_
  firstIndex : Nat                  -- first_file_index_
  useNumbers : Bool                 -- use_file_numbering_
  postfixStr : List Char            -- file_postfix_
  ext : List Char                   -- file_extension_
  master : String                   -- master_frame_
  defs : List DatasetDef            -- dataset_defs_
  cur : Running                     -- current_acquisition_
  next : Pending                    -- next_acquisition_
  disks : String → Disk
  timeoutActive : Bool              -- timeout_active_
  timeoutRequested : Bool           -- start_condition_ was notified
  timerRunning : Bool               -- the timeout thread is in its inner loop (lines 925-938)

/-- The name settings `start_acquisition` is called with, and its extension clean up
(FileWriterPlugin.cpp:209-222, Acquisition.cpp:359-379). -/
def State.naming (s : State) : Filename.Cfg :=
  { configured := s.next.filename, acqId := s.next.acqId, postfixStr := s.postfixStr,
    ext := Filename.sanitiseExtension s.ext, useNumbers := s.useNumbers, start := s.firstIndex }

/-- The next acquisition as it is started now. -/
def State.nextAcq (s : State) : Acq :=
  fresh s.geom s.naming s.master s.defs s.next.total (s.disks s.next.path)

/-- The current acquisition takes a step. -/
def State.setAcq (s : State) (a : Acq) : State :=
  { s with cur := { s.cur with acq := a },
           disks := fun p => if p = s.cur.path then a.disk else s.disks p }

/-- The state after `start_writing` made the next acquisition the current one (lines 199-200). -/
def State.swap (s : State) (e : Env) : State :=
  { s with cur := { env := e, acq := s.nextAcq, path := s.next.path }, next := {} }

/-- `start_writing`, FileWriterPlugin.cpp:192-224. Division by zero in `calc_num_frames` (954-955). -/
def startWriting (e : Env) (s : State) : State × Outcome :=
  if s.writing then (s, .ok)
  else if s.geom.bad then (s, .ub)
  else
    match startAcquisition e s.nextAcq with
    | none => (s.swap e, .ok)
    | some (a, .ok) => ({ (s.swap e).setAcq a with writing := true }, .ok)
    | some (a, o) => ((s.swap e).setAcq a, o)

/-- `stop_writing`, FileWriterPlugin.cpp:231-237. -/
def stopWriting (s : State) : State :=
  if s.writing then { s.setAcq (stopAcquisition s.cur.acq) with writing := false } else s

/-- Whether `stop_acquisition` is allowed to start the next acquisition (lines 854-876). -/
def restartAllowed (s : State) : Bool :=
  !(s.writing && s.next.path != "" && s.next.path == s.cur.path
    && ((s.next.filename != [] && s.next.filename == s.cur.filename)
        || (s.next.acqId != [] && s.next.acqId == s.cur.id)))

/-- `stop_acquisition`, FileWriterPlugin.cpp:851-890. -/
def stopAcq (e : Env) (s : State) : State × Outcome :=
  let s1 := stopWriting s
  if restartAllowed s ∧ (s1.next.filename ≠ [] ∨ s1.next.acqId ≠ []) then
    if s1.next.total > 0 ∧ s1.next.toWrite = 0 then
      ({ s1 with next := {}, timeoutActive := false }, .ok)
    else
      match startWriting e s1 with
      | (s2, .ok) => ({ s2 with timeoutActive := false }, .ok)
      | r => r
  else ({ s1 with timeoutActive := false }, .ok)

/-- `start_close_file_timeout`, FileWriterPlugin.cpp:896-905. -/
def requestTimeout (s : State) : State :=
  if s.timeoutActive then s else { s with timeoutRequested := true }

/-- The optional parts of a dataset description (`configure_dataset`, 627-707). -/
structure DsetCfg where
  dataType : Option DataType := none
  dims : Option (List Nat) := none
  chunks : Option (List Nat) := none
  compression : Option Compression := none
deriving Repr, DecidableEq

/-- One setting of a configuration message. -/
inductive Setting
  | number (n : Nat) | rank (n : Nat) | fpb (n : Nat) | bpf (n : Nat)     -- configure_process
  | path (p : String) (usable : Bool)                                      -- configure_file
  | filename (n : List Char) | useNumbers (b : Bool) | firstNumber (n : Nat)
  | postfixStr (n : List Char) | ext (n : List Char)
  | dataset (name : String) (c : DsetCfg)
  | deleteDatasets
  | frames (n : Nat)
  | master (m : String)
  | acqId (n : List Char)
  | startTimeout (b : Bool)
deriving Repr, DecidableEq

/-- `create_new_dataset`, FileWriterPlugin.cpp:715-734. -/
def createNewDataset (defs : List DatasetDef) (name : String) : List DatasetDef :=
  if defs.any (fun d => d.name = name) then defs
  else defs ++ [{ name, dataType := .raw8, dims := [], chunks := [], compression := Compression.none }]

/-- `configure_dataset` on one definition, FileWriterPlugin.cpp:627-707. -/
def DsetCfg.apply (c : DsetCfg) (d : DatasetDef) : DatasetDef :=
  let d := match c.dataType with | some t => { d with dataType := t } | none => d
  let d := match c.dims with | some l => { d with dims := l, chunks := 1 :: l } | none => d
  let d := match c.chunks with | some l => { d with chunks := l } | none => d
  match c.compression with | some k => { d with compression := k } | none => d

/-- A dataset entry of a message: create it if needed, then configure it (FileWriterPlugin.cpp:279-300). -/
def configureDataset (defs : List DatasetDef) (name : String) (c : DsetCfg) : List DatasetDef :=
  (createNewDataset defs name).map (fun d => if d.name = name then c.apply d else d)

/-- One setting of `configure_process` (426-519): a changed value is refused while writing. -/
def changeGeom (s : State) (old new : Nat) (f : Geom) : State × Outcome :=
  if old = new then (s, .ok) else if s.writing then (s, .threw) else ({ s with geom := f }, .ok)

/-- Apply one setting; `configure` (254-351), `configure_process` (426-519), `configure_file` (534-608),
`configure_dataset` (627-707), `delete_datasets` (739-743). An unusable path only sets a nack reply. -/
def applySetting (s : State) : Setting → State × Outcome
  | .number n => changeGeom s s.geom.procs n { s.geom with procs := n }
  | .rank n => changeGeom s s.geom.rank n { s.geom with rank := n }
  | .fpb n => if s.geom.fpb ≠ n ∧ n < 1 then (s, .threw)
      else changeGeom s s.geom.fpb n { s.geom with fpb := n }
  | .bpf n => changeGeom s s.geom.bpf n { s.geom with bpf := n }
  | .path p usable => (if usable then { s with next := { s.next with path := p } } else s, .ok)
  | .filename n => ({ s with next := { s.next with filename := n } }, .ok)
  | .useNumbers b => ({ s with useNumbers := b }, .ok)
  | .firstNumber n => ({ s with firstIndex := n }, .ok)
  | .postfixStr n => ({ s with postfixStr := n }, .ok)
  | .ext n => ({ s with ext := n }, .ok)
  | .dataset name c => ({ s with defs := configureDataset s.defs name c }, .ok)
  | .deleteDatasets => ({ s with defs := [] }, .ok)
  | .frames n =>
      if s.geom.bad then (s, .ub)
      else ({ s with next := { s.next with total := n, toWrite := calcNumFrames s.geom n } }, .ok)
  | .master m => ({ s with master := m }, .ok)
  | .acqId n => ({ s with next := { s.next with acqId := n } }, .ok)
  | .startTimeout b => (if b && s.writing then requestTimeout s else s, .ok)

/-- `configure`, FileWriterPlugin.cpp:254-351: the first error ends the processing of the message. -/
def configure (s : State) : List Setting → State × Outcome
  | [] => (s, .ok)
  | x :: xs =>
    match applySetting s x with
    | (s', .ok) => configure s' xs
    | r => r

/-- A newly constructed acquisition (Acquisition.cpp:40-61). -/
def blank (d : Disk) : Acq := fresh ⟨0, 1, 1, 0⟩ ⟨[], [], [], [], true, 0⟩ "" [] 0 d

/-- `execute`, FileWriterPlugin.cpp:975-998. -/
def executeStart (e : Env) (s : State) : State × Outcome :=
  if s.next.total > 0 ∧ s.next.toWrite = 0 then
    (if s.writing then { s with next := {} }
      else { s with next := {}, cur := { s.cur with acq := blank (s.disks ""), path := "" } }, .ok)
  else startWriting e s

/-- `frame_in_acquisition`, FileWriterPlugin.cpp:810-845. The Boolean is its result. -/
def frameInAcquisition (e : Env) (s : State) (id : List Char) : State × Bool × Outcome :=
  if id = [] then (s, true, .ok)
  else if s.writing = true ∧ id = s.cur.id then (s, true, .ok)
  else if id = s.next.acqId then
    match startWriting e (stopWriting s) with
    | (s', o) => (s', true, o)
  else (s, false, .ok)

/-- What a call of `process_frame` did: the status of the acquisition if the frame was handed to one,
the id of that acquisition (a ghost observation), and whether the frame was pushed on. -/
structure FrameResult where
  status : Option Status := none
  into : Option (List Char) := none
  pushed : Bool := false
  outcome : Outcome := .ok
deriving Repr, DecidableEq

/-- `process_frame`, FileWriterPlugin.cpp:139-171. `e` is the environment of an acquisition started on
the way. -/
def processFrame (e : Env) (s : State) (id : List Char) (f : Frame) : State × FrameResult :=
  match frameInAcquisition e s id with
  | (s1, true, .ok) =>
    if s1.writing then
      let r := Acq.processFrame s1.cur.env s1.cur.acq f
      let s2 := s1.setAcq r.1
      match r.2 with
      | .complete =>
        let q := stopAcq e s2
        (q.1, { status := some .complete, into := some s1.cur.id, pushed := q.2 = .ok, outcome := q.2 })
      | .completeMissing =>
        (requestTimeout s2, { status := some .completeMissing, into := some s1.cur.id, pushed := true })
      | .ub => (s2, { status := some .ub, into := some s1.cur.id, outcome := .ub })
      | st => (s2, { status := some st, into := some s1.cur.id, pushed := true })
    else (s1, {})
  | (s1, false, .ok) => (s1, {})
  | (s1, _, o) => (s1, { outcome := o })

/-- Everything that happens to the plugin. -/
inductive Op
  | config (xs : List Setting)
  | start (e : Env)                                   -- command start_writing
  | stop                                              -- command stop_writing
  | frame (e : Env) (id : List Char) (f : Frame)
  | endOfAcquisition (e : Env)
  | timerStarts                                       -- the timeout thread wakes up
  | timerNotified                                     -- it sees a frame before the timeout period is over
  | timerExpires (e : Env)                            -- no frame for the timeout period

/-- `process_end_of_acquisition` (178-184) and `run_close_file_timeout` (916-941) included. -/
def step (s : State) : Op → State × FrameResult
  | .config xs => let r := configure s xs; (r.1, { outcome := r.2 })
  | .start e => let r := executeStart e s; (r.1, { outcome := r.2 })
  | .stop => (stopWriting s, {})
  | .frame e id f => processFrame e s id f
  | .endOfAcquisition e =>
    if s.writing then let r := stopAcq e s; (r.1, { outcome := r.2 }) else (s, {})
  | .timerStarts =>
    (if s.timeoutRequested && !s.timerRunning then
      { s with timeoutActive := true, timeoutRequested := false, timerRunning := true } else s, {})
  | .timerNotified => ({ s with timerRunning := s.timerRunning && s.timeoutActive }, {})
  | .timerExpires e =>
    if s.timerRunning then
      if s.writing && s.timeoutActive then
        let r := stopAcq e s
        ({ r.1 with timeoutActive := false, timerRunning := false }, { outcome := r.2 })
      else ({ s with timeoutActive := false, timerRunning := false }, {})
    else (s, {})

/-- A history. -/
def run : State → List Op → State × List FrameResult
  | s, [] => (s, [])
  | s, o :: os =>
    let r := step s o
    let q := run r.1 os
    (q.1, r.2 :: q.2)

/-- The constructor, FileWriterPlugin.cpp:78-104. `timeout_active_` is not initialised by the code: its
first value is a parameter. -/
def init (e : Env) (active : Bool) (disks : String → Disk) : State :=
  { writing := false, geom := ⟨0, 1, 1, 0⟩, firstIndex := 0, useNumbers := true, postfixStr := [],
    ext := ['h', '5'], master := "", defs := [],
    cur := { env := e, acq := blank (disks ""), path := "" },
    next := {}, disks := disks, timeoutActive := active, timeoutRequested := false,
    timerRunning := false }

end Verif.FW
