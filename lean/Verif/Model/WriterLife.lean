/-
The members of the file writer from its construction to its destruction, and the files of its acquisitions.
Source: /repo/cpp/frameProcessor/include/FileWriterPlugin.h 153-209 (the order of the members);
/repo/cpp/frameProcessor/src/FileWriterPlugin.cpp: constructor 78-104, destructor 109-126, start_writing 192-224, stop_writing 231-237,
run_close_file_timeout 916-941; /repo/cpp/frameProcessor/src/Acquisition.cpp: destructor 63-64, create_file 213-279, close_file 289-302,
start_acquisition 343-395, stop_acquisition 400-404; /repo/cpp/frameProcessor/src/HDF5File.cpp: constructor 27-46, destructor 48-54,
create_file 130-186, close_file 193-215; /repo/cpp/frameProcessor/include/HDF5File.h 142 (a reference to the limits in the plugin);
/repo/cpp/frameProcessor/include/WatchdogTimer.h 51 (a reference to the callback in them).

Members are destroyed in the reverse order of their declaration, as C++ has it. Which of the HDF5 calls fail is a choice of the
environment. The next acquisition has no files before it is started.
-/
namespace Verif.WriterLife

/-- The members, FileWriterPlugin.h:153-209. -/
inductive Member
  | logger | mutex | writing | geometry | current | next | defs | blocks | settings | period | startMutex | closeMutex
  | startCondition | timeoutCondition | active | running | thread | names | limits | durations
deriving DecidableEq, Repr

/-- In the order of declaration. -/
def declared : List Member :=
  [.logger, .mutex, .writing, .geometry, .current, .next, .defs, .blocks, .settings, .period, .startMutex, .closeMutex,
   .startCondition, .timeoutCondition, .active, .running, .thread, .names, .limits, .durations]

/-- A file object of the current acquisition. -/
inductive File
  | none | closed | opened
deriving DecidableEq, Repr

structure St where
  writing : Bool
  prev : File          -- `previous_file_`
  cur : File           -- `current_file_`
deriving DecidableEq, Repr

/-- The result of a method. -/
inductive Out
  | ok | threw
deriving DecidableEq, Repr

/-- What HDF5 makes of a new file. -/
inductive Made
  | noFile        -- `H5Fcreate` fails
  | noDataset     -- the file is there, a dataset is refused, or SWMR
  | good
deriving DecidableEq, Repr

/-- `HDF5File::close_file`, HDF5File.cpp:193-215: a failed call leaves the file open. -/
def File.close (f : File) (works : Bool) : File × Out :=
  match f with
  | .opened => if works then (.closed, .ok) else (.opened, .threw)
  | f => (f, .ok)

/-- `create_file`, Acquisition.cpp:220-278, after the closing. -/
def created (s : St) (m : Made) : St × Out :=
  match m with
  | .noFile => (⟨s.writing, s.cur, .closed⟩, .threw)
  | .noDataset => (⟨s.writing, s.cur, .opened⟩, .threw)
  | .good => (⟨s.writing, s.cur, .opened⟩, .ok)

/-- `create_file`, Acquisition.cpp:213-279. -/
def create (s : St) (works : Bool) (m : Made) : St × Out :=
  match s.prev.close works with
  | (f, .threw) => (⟨s.writing, f, s.cur⟩, .threw)
  | (f, .ok) => created ⟨s.writing, f, s.cur⟩ m

/-- `writing_` is the result of `start_acquisition`; an exception leaves it as it is. -/
def written (r : St × Out) : St × Out :=
  match r.2 with
  | .ok => (⟨true, r.1.prev, r.1.cur⟩, .ok)
  | .threw => r

/-- `start_writing`, FileWriterPlugin.cpp:192-224: a new acquisition, without files; the old one is destroyed with its files.
`named`: there is a name for the file, Acquisition.cpp:384-388. -/
def start (s : St) (named : Bool) (m : Made) : St × Out :=
  if s.writing then (s, .ok)
  else if named then written (create ⟨false, .none, .none⟩ true m)
  else (⟨false, .none, .none⟩, .ok)

/-- `stop_acquisition`, Acquisition.cpp:400-404. -/
def stopFiles (s : St) (worksPrev worksCur : Bool) : St × Out :=
  match s.prev.close worksPrev with
  | (f, .threw) => (⟨s.writing, f, s.cur⟩, .threw)
  | (f, .ok) => (⟨s.writing, f, (s.cur.close worksCur).1⟩, (s.cur.close worksCur).2)

/-- `stop_writing`, FileWriterPlugin.cpp:231-237. -/
def stop (s : St) (worksPrev worksCur : Bool) : St × Out :=
  if s.writing then stopFiles ⟨false, s.prev, s.cur⟩ worksPrev worksCur else (s, .ok)

/-- What happens to the writer. -/
inductive Ev
  | start (named : Bool) (m : Made)
  | nextFile (works : Bool) (m : Made)        -- a frame needs another file
  | stop (worksPrev worksCur : Bool)
deriving DecidableEq, Repr

def step (s : St) : Ev → St
  | .start named m => (start s named m).1
  | .nextFile works m => if s.writing then (create s works m).1 else s
  | .stop a b => (stop s a b).1

def init : St := ⟨false, .none, .none⟩

def run (evs : List Ev) : St := evs.foldl step init

/-- Members that the destructor of a member uses: the acquisition closes its files, and reads the limits in `close_file`,
HDF5File.cpp:208. -/
def uses (s : St) : Member → List Member
  | .current => if s.cur = .opened ∨ s.prev = .opened then [.limits] else []
  | _ => []

/-- The end of the writer. -/
inductive End
  | fine
  | ub (used : Member)        -- a member is used after its destruction
  | terminated                -- an exception leaves the destructor
deriving DecidableEq, Repr

/-- The members are destroyed, the last of the list first; `alive` are those that are still there. -/
def destroy (s : St) : List Member → End
  | [] => .fine
  | m :: later =>
    match destroy s later with
    | .fine => if (uses s m).all (fun u => !later.contains u) then .fine else .ub m
    | e => e

/-- The destructor, FileWriterPlugin.cpp:109-126, and the members after it. -/
def delete (order : List Member) (s : St) (worksPrev worksCur : Bool) : End :=
  match stop s worksPrev worksCur with
  | (_, .threw) => .terminated
  | (s, .ok) => destroy s order

/-- Members that the timeout thread uses, FileWriterPlugin.cpp:916-941; `stop_acquisition` only if it is writing. -/
def usedByThread : List Member :=
  [.startMutex, .running, .startCondition, .active, .closeMutex, .timeoutCondition, .period, .logger, .mutex, .writing]

end Verif.WriterLife
