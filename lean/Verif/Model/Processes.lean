import Verif.Model.ManyFiles
import Verif.Model.Filename
/-
Model of several file writer processes that write into one directory, each frame receiver and processor of their own.
Source: /repo/cpp/frameProcessor/src/Acquisition.cpp: process_frame 84-130, create_file 213-279, start_acquisition 343-395,
get_file 545-581, generate_filename 654-677; as Model/ManyFiles, but what is on disk is found by the name of the file.

The processes act in any order, one frame at a time; they have nothing in common but the directory. A file that is created is
empty, whoever has it open: HDF5 truncates it (H5F_ACC_TRUNC, HDF5File.cpp:160), locks on files are left out.
-/
namespace Verif.Processes
open Verif.Decoder (Ready)
open Verif.EndToEnd (Setup)
open Verif.ManyFiles (Writer fresh)

/-- The directory: the dataset in the file of this name. -/
abbrev Disk := List Char → Option (Layout.Ds Nat)

/-- `current_file_` and `previous_file_` of a process, by their numbers. -/
structure Own where
  cur : Nat
  prev : Option Nat
deriving DecidableEq

/-- One file is changed. -/
def set (disk : Disk) (n : List Char) (d : Option (Layout.Ds Nat)) : Disk := fun m => if m = n then d else disk m

/-- A process: its settings; `names` are those that enter the names of its files. -/
structure Proc where
  setup : Setup
  writer : Writer
  names : Filename.Cfg

/-- The name of a file, Acquisition.cpp:654-677. -/
def Proc.name (p : Proc) (i : Nat) : List Char := Filename.generate p.names i

/-- `create_file`, Acquisition.cpp:213-279. -/
def create (p : Proc) (st : Own × Disk) (i : Nat) : Own × Disk := (⟨i, some st.1.cur⟩, set st.2 (p.name i) (fresh p.setup p.writer i))

/-- The files that are missing, and the one asked for, Acquisition.cpp:561-575; false: an exception. -/
def createUpTo (p : Proc) (st : Own × Disk) (next target : Nat) : (Own × Disk) × Bool :=
  if _h : next < target ∧ 0 < p.setup.geom.procs then
    if (fresh p.setup p.writer next).isSome then createUpTo p (create p st next) (next + p.setup.geom.procs) target
    else (create p st next, false)
  else (create p st target, (fresh p.setup p.writer target).isSome)
termination_by target - next
decreasing_by omega

/-- `get_file`, Acquisition.cpp:545-581, for file number `i`; false: no file, the frame is not written. -/
def select (p : Proc) (st : Own × Disk) (i : Nat) : (Own × Disk) × Bool :=
  if i = st.1.cur then (st, true)
  else if st.1.prev = some i then (st, true)
  else if i > st.1.cur then createUpTo p st (st.1.cur + p.setup.geom.procs) i
  else (st, false)

/-- The frame is written into the file, Acquisition.cpp:112-125. -/
def put (p : Proc) (st : Own × Disk) (i slot : Nat) (image : List Nat) : Own × Disk :=
  (st.1, set st.2 (p.name i) ((st.2 (p.name i)).map (fun d => (Layout.write p.setup.edge d 1 slot image).1)))

/-- Into the file if there is one. -/
def putIf (p : Proc) (r : (Own × Disk) × Bool) (i slot : Nat) (image : List Nat) : Own × Disk :=
  if r.2 then put p r.1 i slot image else r.1

/-- The number of the file of a frame, Acquisition.cpp:526-532. -/
def target (p : Proc) (number : Nat) : Nat := Placement.fileIndex p.setup.geom (EndToEnd.offset p.setup number)

/-- The frame, if it is valid and for this process, to its place. -/
def acquireAt (p : Proc) (ok : Bool) (i slot : Nat) (image : List Nat) (st : Own × Disk) : Own × Disk :=
  if ok then putIf p (select p st i) i slot image else st

/-- `process_frame`, Acquisition.cpp:84-130. -/
def acquire (p : Proc) (number : Nat) (f : Pipeline.Fr) (st : Own × Disk) : Own × Disk :=
  acquireAt p (EndToEnd.valid p.setup f && EndToEnd.accepts p.setup number) (target p number)
    (Placement.offsetInFile p.setup.geom (EndToEnd.offset p.setup number)) f.image st

/-- A process that is running, or has ended. -/
def live (st : Own × Disk) : Option Own × Disk := (some st.1, st.2)

/-- What happens at the end of the way of a frame; undefined behaviour or an exception in the thread of a plugin end the
process. -/
def arrive (p : Proc) (number : Nat) (st : Own × Disk) : Option Pipeline.Res → Option Own × Disk
  | some (.pushed f) => live (acquire p number f st)
  | some .dropped => live st
  | some .threw => (none, st.2)
  | some .ub => (none, st.2)
  | none => (none, st.2)

/-- What a process does: it starts an acquisition, or is handed a buffer by its receiver. -/
inductive Op where
  | start
  | frame (r : Ready)

/-- A buffer handed on; nothing happens if the process does not write, or has ended. -/
def handed (p : Proc) (disk : Disk) (r : Ready) : Option Own → Option Own × Disk
  | none => (none, disk)
  | some o => arrive p r.buf.frame (o, disk) (EndToEnd.sent p.setup r)

/-- One process does something; Acquisition.cpp:343-395 for the start: the file with the number of the rank is created. -/
def act (p : Proc) (st : Option Own × Disk) : Op → Option Own × Disk
  | .start => (some ⟨p.setup.geom.rank, none⟩, set st.2 (p.name p.setup.geom.rank) (fresh p.setup p.writer p.setup.geom.rank))
  | .frame r => handed p st.2 r st.1

/-- All processes and the directory. -/
structure World where
  own : Nat → Option Own
  disk : Disk

/-- Process `k` does something. -/
def step (ps : Nat → Proc) (W : World) (k : Nat) (op : Op) : World :=
  ⟨fun j => if j = k then (act (ps k) (W.own k, W.disk) op).1 else W.own j, (act (ps k) (W.own k, W.disk) op).2⟩

/-- In this order. -/
def run (ps : Nat → Proc) (W : World) : List (Nat × Op) → World
  | [] => W
  | x :: l => run ps (step ps W x.1 x.2) l

/-- No process has started. -/
def begun (disk : Disk) : World := ⟨fun _ => none, disk⟩

end Verif.Processes
