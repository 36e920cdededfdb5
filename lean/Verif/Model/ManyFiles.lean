import Verif.Model.EndToEnd
import Verif.Model.Acquisition
/-
Model of the way of an image into one of several files (`blocks_per_file` not 0), behind the receiver and the plugins of
Model/EndToEnd.
Source: /repo/cpp/frameProcessor/src/Acquisition.cpp: process_frame 84-130, create_file 213-279, start_acquisition 343-395,
get_file 545-581.

A file is given by its number: different numbers give different names (C03). Creating a file empties it; of the datasets in it
only the one of the image is modelled, with its layout and chunks (Model/Layout), one frame to a chunk. Creating a file and
closing one do not fail here (C04, C129 say what happens then), but creating the dataset may. Extents are exact numbers; the code
computes the same below 2^31 frames (C17_frames).
-/
namespace Verif.ManyFiles
open Verif.Decoder (Ready)
open Verif.EndToEnd (Setup)

/-- The dataset: `unlimited`, the number of frames this process is to write (`frames_to_write_`), and the size of an element. -/
structure Writer where
  unlimited : Bool
  toWrite : Nat
  size : Nat

/-- `current_file_` and `previous_file_`, by their numbers, and the dataset in every file on disk (`none`: there is none). -/
structure St where
  cur : Nat
  prev : Option Nat
  files : Nat → Option (Layout.Ds Nat)

/-- The dataset of a new file, Acquisition.cpp:241-276; `none`: refused, an exception. -/
def fresh (s : Setup) (w : Writer) (i : Nat) : Option (Layout.Ds Nat) :=
  Layout.create w.unlimited ⟨s.dims, 1 :: s.dims, Acq.datasetFrames s.geom 1 w.toWrite i, w.size⟩

/-- One file is changed. -/
def set (files : Nat → Option (Layout.Ds Nat)) (i : Nat) (d : Option (Layout.Ds Nat)) : Nat → Option (Layout.Ds Nat) :=
  fun j => if j = i then d else files j

/-- `create_file`, Acquisition.cpp:213-279: the current file becomes the previous one. -/
def create (s : Setup) (w : Writer) (st : St) (i : Nat) : St := ⟨i, some st.cur, set st.files i (fresh s w i)⟩

/-- The files that are missing, and the one asked for, Acquisition.cpp:561-575; false: an exception. -/
def createUpTo (s : Setup) (w : Writer) (st : St) (next target : Nat) : St × Bool :=
  if _h : next < target ∧ 0 < s.geom.procs then
    if (fresh s w next).isSome then createUpTo s w (create s w st next) (next + s.geom.procs) target
    else (create s w st next, false)
  else (create s w st target, (fresh s w target).isSome)
termination_by target - next
decreasing_by omega

/-- `get_file`, Acquisition.cpp:545-581, for file number `i`; false: no file, the frame is not written. -/
def select (s : Setup) (w : Writer) (st : St) (i : Nat) : St × Bool :=
  if i = st.cur then (st, true)
  else if st.prev = some i then (st, true)
  else if i > st.cur then createUpTo s w st (st.cur + s.geom.procs) i
  else (st, false)

/-- The frame is written into the file, Acquisition.cpp:112-125. -/
def put (s : Setup) (st : St) (i slot : Nat) (image : List Nat) : St :=
  ⟨st.cur, st.prev, set st.files i ((st.files i).map (fun d => (Layout.write s.edge d 1 slot image).1))⟩

/-- Into the file if there is one. -/
def putIf (s : Setup) (r : St × Bool) (i slot : Nat) (image : List Nat) : St := if r.2 then put s r.1 i slot image else r.1

/-- `process_frame`, Acquisition.cpp:84-130. -/
def acquire (s : Setup) (w : Writer) (number : Nat) (f : Pipeline.Fr) (st : St) : St :=
  if EndToEnd.valid s f && EndToEnd.accepts s number then
    putIf s (select s w st (Placement.fileIndex s.geom (EndToEnd.offset s number))) (Placement.fileIndex s.geom (EndToEnd.offset s number))
      (Placement.offsetInFile s.geom (EndToEnd.offset s number)) f.image
  else st

/-- What happens at the end of the way of a frame; `none`: undefined behaviour, or an exception in the thread of a plugin. -/
def arrive (s : Setup) (w : Writer) (number : Nat) (st : St) : Pipeline.Res → Option St
  | .pushed f => some (acquire s w number f st)
  | .dropped => some st
  | .threw => none
  | .ub => none

/-- A buffer handed on, to its file. -/
def deliver (s : Setup) (w : Writer) (st : St) (r : Ready) : Option St :=
  (EndToEnd.sent s r).bind (arrive s w r.buf.frame st)

/-- All buffers handed on, in turn. -/
def deliverAll (s : Setup) (w : Writer) (st : St) : List Ready → Option St
  | [] => some st
  | r :: l => (deliver s w st r).bind (fun st => deliverAll s w st l)

/-- The start of an acquisition, Acquisition.cpp:343-395: the file with the number of the rank is created, whatever there is on
disk. -/
def start (s : Setup) (w : Writer) (old : Nat → Option (Layout.Ds Nat)) : St :=
  ⟨s.geom.rank, none, set old s.geom.rank (fresh s w s.geom.rank)⟩

end Verif.ManyFiles
