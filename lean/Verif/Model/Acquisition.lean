import Verif.Model.Placement
import Verif.Model.Filename
import Verif.Model.Definitions
/-
Model of one acquisition of the file writer and of the HDF5 file objects it drives.
Source: /repo/cpp/frameProcessor/src/Acquisition.cpp, /repo/cpp/frameProcessor/src/HDF5File.cpp.

Simplifications (all of them stated here, repeated at the definitions they concern):
 * `size_t`/`hsize_t`/`int` quantities are unbounded naturals, except in `adjustOffset` where the
   32/64 bit conversions matter and are modelled.
 * The image bytes of a frame and a parameter value are represented by an opaque natural number.
 * The HDF5 library is an environment: whether `H5Fcreate`, the creation of the datasets and the write
   of a chunk or parameter succeed is supplied from outside (`Env`, `Frame.write`, `Param.ok`).
   Failure of `H5Fclose`/`H5Dclose`, of property list calls and of `H5Dset_extent` is not modelled.
 * Durations, log messages and low/high index attributes are not modelled.
-/
namespace Verif.Acq
open Verif.Placement

abbrev Name := List Char

/-! ## Frames and dataset definitions -/

/-- The parts of `DatasetDefinition` (FrameProcessorDefinitions.h:137-157) the writer looks at. -/
structure DatasetDef where
  name : String
  dataType : DataType
  dims : List Nat
  chunks : List Nat
  compression : Compression
deriving Repr, DecidableEq

/-- What the HDF5 library does with one chunk write (HDF5File.cpp:260-274). -/
inductive WriteResult
  | ok
  | fails        -- H5DOwrite_chunk reports an error, nothing stored
  | flushFails   -- the chunk is stored, H5Dflush reports an error
deriving Repr, DecidableEq

/-- A named parameter of a frame; `ok` says whether `HDF5File::write_parameter`
(HDF5File.cpp:291-395) would succeed for it (right type in the `boost::any`, HDF5 calls succeed). -/
structure Param where
  name : String
  value : Nat
  ok : Bool
deriving Repr, DecidableEq

/-- The parts of a frame and its meta data used by `Acquisition::process_frame`. -/
structure Frame where
  number : Int              -- get_frame_number(), long long
  adj : Int                 -- meta data get_frame_offset(), int64_t
  dataset : String
  dataType : DataType
  compression : Compression
  dims : List Nat
  outerChunk : Nat          -- get_outer_chunk_size()
  payload : Nat             -- the image bytes
  params : List Param       -- get_parameters(), in map order
  write : WriteResult       -- environment: outcome of storing this frame
deriving Repr, DecidableEq

/-! ## HDF5 files -/

/-- `HDF5Dataset_t` (HDF5File.h): extent of dimension 0 and `actual_dataset_size_`. -/
structure Dset where
  dim0 : Nat
  actual : Nat
deriving Repr, DecidableEq

/-- An `HDF5File` object. `dsets` is `hdf5_datasets_`. -/
structure H5File where
  index : Nat               -- file_index_, 0 until create_file succeeded (HDF5File.cpp:184)
  name : Name               -- filename_
  isOpen : Bool             -- hdf5_file_id_ >= 0
  unlimited : Bool
  dsets : List (String × Dset)
deriving Repr, DecidableEq

/-- What is stored in one file on disk: dataset → position along dimension 0 → value. -/
abbrev Content := String → Nat → Option Nat

/-- Files on disk by name. -/
abbrev Disk := Name → Option Content

def Disk.read (d : Disk) (n : Name) (ds : String) (pos : Nat) : Option Nat :=
  match d n with
  | none => none
  | some c => c ds pos

/-- H5Fcreate with H5F_ACC_TRUNC (HDF5File.cpp:160-163): the file exists and is empty. -/
def Disk.truncate (d : Disk) (n : Name) : Disk :=
  fun m => if m = n then some (fun _ _ => none) else d m

/-- Store a value; only ever called for a file that exists. -/
def Disk.store (d : Disk) (n : Name) (ds : String) (pos v : Nat) : Disk :=
  fun m => if m = n then
      (d m).map (fun c => fun ds' p' => if ds' = ds ∧ p' = pos then some v else c ds' p')
    else d m

/-- `HDF5File::extend_dataset`, HDF5File.cpp:581-589: the extent only grows. -/
def Dset.extend (s : Dset) (n : Nat) : Dset :=
  if n > s.dim0 then { s with dim0 := n } else s

/-- `if (unlimited_) extend_dataset(...)`, HDF5File.cpp:246-248 and 339-341. -/
def Dset.grow (unlimited : Bool) (s : Dset) (n : Nat) : Dset :=
  if unlimited then s.extend n else s

/-- HDF5File.cpp:279-281. -/
def Dset.noteWritten (s : Dset) (endPos : Nat) : Dset :=
  if endPos > s.actual then { s with actual := endPos } else s

/-- `std::map::find` on `hdf5_datasets_` (HDF5File.cpp:558-568; `none` is the thrown error). -/
def H5File.dset (f : H5File) (ds : String) : Option Dset := f.dsets.lookup ds

/-- Replace the entry of one dataset. -/
def H5File.setDset (f : H5File) (ds : String) (s : Dset) : H5File :=
  { f with dsets := f.dsets.map (fun e => if e.1 = ds then (e.1, s) else e) }

/-! ## Environment -/

/-- Outcome of one file creation. -/
inductive CreateResult
  | ok
  | noFile               -- H5Fcreate fails: nothing on disk changes, file_index_ stays 0
  | noDataset (k : Nat)  -- the file is created, then an error after `k` datasets were created
deriving Repr, DecidableEq

/-- Number of dataset creations that succeed, if limited. -/
def CreateResult.budget : CreateResult → Option Nat
  | .noDataset k => some k
  | _ => none

structure Env where
  /-- outcome of the n-th file creation of the acquisition -/
  create : Nat → CreateResult
  /-- whether the HDF5 library in use accepts a chunk write at a position equal to the extent
  (the check in HDF5 is "offset > dims" in some versions) -/
  edge : Bool

/-! ## Acquisition -/

/-- Published meta data events (Acquisition.cpp:36-38 and `publish_meta` calls). -/
inductive Event
  | start
  | create (n : Name)
  | write (frame : Nat) (offset : Nat)
  | close (n : Name)
  | stop
deriving Repr, DecidableEq

/-- Acquisition.h members. `disk` and `attempts` belong to the environment. -/
structure Acq where
  geom : Geom
  naming : Filename.Cfg
  master : String
  defs : List DatasetDef
  totalFrames : Nat
  framesToWrite : Nat
  framesWritten : Nat
  framesProcessed : Nat
  current : Option H5File
  previous : Option H5File
  events : List Event       -- in order of publication
  disk : Disk
  attempts : Nat            -- number of file creations so far

/-- `ProcessFrameStatus`, FrameProcessorDefinitions.h:28, plus undefined behaviour. -/
inductive Status
  | ok | complete | completeMissing | invalid | ub
deriving Repr, DecidableEq

/-- Outcome of an internal step that may throw or run into undefined behaviour. -/
inductive Outcome
  | ok | threw | ub
deriving Repr, DecidableEq

def Acq.publish (a : Acq) (e : Event) : Acq := { a with events := a.events ++ [e] }

/-- `dataset_defs_.at(name)`. -/
def findDef (defs : List DatasetDef) (ds : String) : Option DatasetDef :=
  defs.find? (fun d => d.name = ds)

/-- `Acquisition::check_frame_valid`, Acquisition.cpp:413-494. -/
def checkFrameValid (defs : List DatasetDef) (f : Frame) : Bool :=
  match findDef defs f.dataset with
  | none => false
  | some d =>
    !(f.compression == .unknown) && f.compression == d.compression
    && !(f.dataType == .rawUnknown) && f.dataType == d.dataType
    && f.dims == d.dims

/-- The C++ conversion `(int) x` of a 64 bit unsigned value: the low 32 bits, read as signed. -/
def toInt32 (n : Int) : Int :=
  let m := n % 4294967296
  if m < 2147483648 then m else m - 4294967296

/-- The conversion to `size_t`. -/
def toU64 (n : Int) : Nat := (n % 18446744073709551616).toNat

/-- `Acquisition::adjust_frame_offset`, Acquisition.cpp:594-609; `none` is the thrown range_error.
The sum `(int) frame_no + adjustment` is computed in int64_t; its overflow (adjustments within 2^31
of the int64_t limits) is not modelled. -/
def adjustOffset (number adj : Int) : Option Nat :=
  if toInt32 number + adj < 0 then none else some (toU64 (toU64 number + adj))

/-- The dataset extent `create_file` computes, Acquisition.cpp:260-273. `int` there, unbounded here. -/
def datasetFrames (g : Geom) (chunk0 framesToWrite fileNumber : Nat) : Nat :=
  let wrap := fileNumber / g.procs + 1
  let framesPerFile := g.bpf * g.fpb * chunk0
  if framesPerFile > 1 then
    if wrap * framesPerFile > framesToWrite then framesToWrite % framesPerFile else framesPerFile
  else framesToWrite

/-- One iteration of the dataset loop of `create_file` (Acquisition.cpp:241-276) including
`validate_dataset_definition` (310-324) and `HDF5File::create_dataset` (HDF5File.cpp:404-546).
An empty chunk list is indexed at 261: undefined behaviour. HDF5 refuses a chunk of size zero, which
`create_dataset` asks for when the static extent is zero (HDF5File.cpp:445-447, 497). -/
def createDataset (g : Geom) (ftw fileNumber : Nat) (file : H5File) (d : DatasetDef) :
    H5File × Outcome :=
  match d.chunks with
  | [] => (file, .ub)
  | c :: _ =>
    let n := datasetFrames g c ftw fileNumber
    if d.dims.any (· == 0) || d.chunks.any (· == 0) then (file, .threw)
    else if d.chunks.length ≠ d.dims.length + 1 then (file, .threw)
    else if file.unlimited then
      ({ file with dsets := file.dsets ++ [(d.name, { dim0 := 1, actual := 0 })] }, .ok)
    else if n = 0 then (file, .threw)
    else ({ file with dsets := file.dsets ++ [(d.name, { dim0 := n, actual := 0 })] }, .ok)

/-- The dataset loop and `start_swmr` (Acquisition.cpp:278). `budget = some k`: the environment makes
the k+1-st of these calls fail. -/
def createDatasets (g : Geom) (ftw fileNumber : Nat) :
    H5File → List DatasetDef → Option Nat → H5File × Outcome
  | file, _, some 0 => (file, .threw)
  | file, [], _ => (file, .ok)
  | file, d :: ds, budget =>
    match createDataset g ftw fileNumber file d with
    | (file', .ok) => createDatasets g ftw fileNumber file' ds (budget.map (· - 1))
    | (file', o) => (file', o)

/-- `HDF5File::close_file` (HDF5File.cpp:194-216) followed by the event of `Acquisition::close_file`
(Acquisition.cpp:289-301); the caller drops or keeps the closed object. -/
def closeFile (a : Acq) (f : Option H5File) : Acq :=
  match f with
  | none => a
  | some f => a.publish (.close f.name)

def H5File.closed (f : H5File) : H5File := { f with isOpen := false, dsets := [] }

/-- `Acquisition::create_file`, Acquisition.cpp:213-279. The file name is the one generated for the
same file number just before every call (382-392, 566-573). -/
def createFile (e : Env) (a : Acq) (fileNumber : Nat) : Acq × Outcome :=
  let name := Filename.generate a.naming fileNumber
  let b := { closeFile a a.previous with previous := a.current, attempts := a.attempts + 1 }
  match e.create a.attempts with
  | .noFile =>
    ({ b with current := some { index := 0, name := name, isOpen := false, unlimited := false,
                                dsets := [] } }, .threw)
  | r =>
    let file : H5File := { index := fileNumber, name := name, isOpen := true,
                           unlimited := a.totalFrames == 0, dsets := [] }
    let b := ({ b with disk := a.disk.truncate name } : Acq).publish (.create name)
    if a.geom.procs = 0 ∧ a.defs ≠ [] then ({ b with current := some file }, .ub)  -- line 260
    else
      let r := createDatasets a.geom a.framesToWrite fileNumber file a.defs r.budget
      ({ b with current := some r.1 }, r.2)

/-- The "missing files" loop of `get_file`, Acquisition.cpp:563-569. After a successful creation the
next expected index is the created index plus the number of processes, which is `next + procs`.
(`procs = 0` is undefined behaviour before this point.) -/
def createMissing (e : Env) (a : Acq) (next target : Nat) : Acq × Outcome :=
  if _h : next < target ∧ 0 < a.geom.procs then
    match createFile e a next with
    | (a', .ok) => createMissing e a' (next + a.geom.procs) target
    | r => r
  else (a, .ok)
termination_by target - next
decreasing_by omega

/-- Which file object `get_file` returns. -/
inductive Sel
  | cur | prev | null | threw | ub
deriving Repr, DecidableEq

/-- `Acquisition::get_file`, Acquisition.cpp:545-581. -/
def getFile (e : Env) (a : Acq) (off : Nat) : Acq × Sel :=
  if a.geom.bpf = 0 then
    match a.current with
    | none => (a, .null)
    | some _ => (a, .cur)
  else
    let idx := fileIndex a.geom off
    match a.current with
    | none => (a, .ub)
    | some c =>
      if idx = c.index then (a, .cur)
      else if a.previous.map H5File.index = some idx then (a, .prev)
      else if idx > c.index then
        match createMissing e a (c.index + a.geom.procs) idx with
        | (a', .ok) =>
          match createFile e a' idx with
          | (a'', .ok) => (a'', .cur)
          | (a'', .threw) => (a'', .threw)
          | (a'', .ub) => (a'', .ub)
        | (a', .threw) => (a', .threw)
        | (a', .ub) => (a', .ub)
      else (a, .null)

/-- The selected file object. -/
def Acq.file (a : Acq) (usePrev : Bool) : Option H5File := if usePrev then a.previous else a.current

def Acq.setFile (a : Acq) (usePrev : Bool) (f : H5File) : Acq :=
  if usePrev then { a with previous := some f } else { a with current := some f }

/-- The extent test of `process_frame`, Acquisition.cpp:114-118, including the special role of 0 and
the conversion of -1 to the largest `size_t`. -/
def exceedsExtent (unlimited : Bool) (dim0 off : Nat) : Bool :=
  let maxSize := if unlimited then 0 else dim0          -- get_dataset_max_size, HDF5File.cpp:607-616
  if maxSize = 0 then false                             -- -1, i.e. SIZE_MAX
  else (maxSize - 1 != 0) && decide (off > maxSize - 1)

/-- `HDF5File::write_frame`, HDF5File.cpp:227-282: result is the file object, the disk and whether it
threw. Alignment of the position to the chunk is not modelled separately: the position is a multiple
of the outer chunk, and when the chunk was clipped to the extent every position but 0 is outside.
Simplified: positions are numbers of any size and extending never fails; Model/Dataset.lean has 64 bits and failures. -/
def writeFrame (e : Env) (disk : Disk) (file : H5File) (f : Frame) (slot outer : Nat) :
    H5File × Disk × Bool :=
  match file.dset f.dataset with
  | none => (file, disk, true)
  | some s =>
    let s := Dset.grow file.unlimited s ((slot + 1) * outer)
    let pos := slot * outer
    if pos > s.dim0 ∨ (pos = s.dim0 ∧ e.edge = false) ∨ f.write = .fails then
      (file.setDset f.dataset s, disk, true)
    else
      let disk := disk.store file.name f.dataset pos f.payload
      if f.write = .flushFails then (file.setDset f.dataset s, disk, true)
      else (file.setDset f.dataset (s.noteWritten (pos + f.outerChunk)), disk, false)

/-- The parameter loop of `process_frame`, Acquisition.cpp:128-137, with `write_parameter`
(HDF5File.cpp:291-395). Parameters without a dataset definition are skipped. -/
def writeParams (defs : List DatasetDef) (slot : Nat) :
    H5File → Disk → List Param → H5File × Disk × Bool
  | file, disk, [] => (file, disk, false)
  | file, disk, p :: ps =>
    match findDef defs p.name with
    | none => writeParams defs slot file disk ps
    | some _ =>
      match file.dset p.name with
      | none => (file, disk, true)
      | some s =>
        let s := Dset.grow file.unlimited s (slot + 1)
        let file := file.setDset p.name s
        if slot < s.dim0 ∧ p.ok = true then
          writeParams defs slot file (disk.store file.name p.name slot p.value) ps
        else (file, disk, true)

/-- The completion test, Acquisition.cpp:168-176. -/
def completion (toWrite written processed : Nat) : Status :=
  if toWrite > 0 ∧ written = toWrite then
    if processed ≥ toWrite then .complete else .completeMissing
  else .ok

/-- The counters, Acquisition.cpp:151-166, and the completion test. -/
def account (a : Acq) (f : Frame) : Acq × Status :=
  if a.master = "" ∨ a.master = f.dataset then
    match a.current with
    | none => (a, .ub)
    | some c =>
      match c.dset f.dataset with
      | none => (a, .invalid)                       -- get_dataset_frames throws
      | some s =>
        let total := (c.index / a.geom.procs) * a.geom.fpb * a.geom.bpf + s.actual
        let written := max a.framesWritten total
        let processed := a.framesProcessed + f.outerChunk
        ({ a with framesProcessed := processed, framesWritten := written },
          completion a.framesToWrite written processed)
  else (a, completion a.framesToWrite a.framesWritten a.framesProcessed)

/-- `process_frame` from the point where the file is known, Acquisition.cpp:112-176. -/
def writeTo (e : Env) (a : Acq) (f : Frame) (off : Nat) (usePrev : Bool) : Acq × Status :=
  match a.file usePrev with
  | none => (a, .ub)
  | some file =>
    let slot := offsetInFile a.geom off
    match file.unlimited, file.dset f.dataset with
    | false, none => (a, .invalid)                  -- get_dataset_max_size throws
    | _, s =>
      if exceedsExtent file.unlimited ((s.map Dset.dim0).getD 0) slot then (a, .invalid)
      else
        match findDef a.defs f.dataset with
        | none => (a, .invalid)
        | some d =>
          match d.chunks with
          | [] => (a, .ub)
          | outer :: _ =>
            match writeFrame e a.disk file f slot outer with
            | (file, disk, true) => (({ a with disk := disk } : Acq).setFile usePrev file, .invalid)
            | (file, disk, false) =>
              match writeParams a.defs slot file disk f.params with
              | (file, disk, true) =>
                (({ a with disk := disk } : Acq).setFile usePrev file, .invalid)
              | (file, disk, false) =>
                let a := ({ a with disk := disk } : Acq).setFile usePrev file
                let a := a.publish (.write (toU64 f.number) off)
                account a f

/-- `Acquisition::process_frame`, Acquisition.cpp:84-203. -/
def processFrame (e : Env) (a : Acq) (f : Frame) : Acq × Status :=
  if checkFrameValid a.defs f then
    match adjustOffset f.number f.adj with
    | none => (a, .invalid)
    | some off =>
      if a.geom.bad then (a, .ub)   -- division by zero or wrap-around, 97/507/527
      else if acceptsOffset a.geom off then
        match getFile e a off with
        | (a, .cur) => writeTo e a f off false
        | (a, .prev) => writeTo e a f off true
        | (a, .null) => (a, .invalid)
        | (a, .threw) => (a, .invalid)
        | (a, .ub) => (a, .ub)
      else (a, .invalid)
  else (a, .invalid)

/-- `Acquisition::start_acquisition`, Acquisition.cpp:343-395, for an acquisition object whose
settings are already in place. `none`: refused (no file name); otherwise the outcome of creating the
first file (an exception leaves the plugin not writing, FileWriterPlugin.cpp:209). -/
def startAcquisition (e : Env) (a : Acq) : Option (Acq × Outcome) :=
  if Filename.generate a.naming a.geom.rank = [] then none
  else some (createFile e (a.publish .start) a.geom.rank)

/-- `Acquisition::stop_acquisition`, Acquisition.cpp:400-404. -/
def stopAcquisition (a : Acq) : Acq :=
  let a := closeFile a a.previous
  let a := { a with previous := a.previous.map H5File.closed }
  let a := closeFile a a.current
  let a := { a with current := a.current.map H5File.closed }
  a.publish .stop

/-- Run a sequence of frames, collecting the statuses. -/
def run (e : Env) : Acq → List Frame → Acq × List Status
  | a, [] => (a, [])
  | a, f :: fs =>
    let (a1, s) := processFrame e a f
    let (a2, ss) := run e a1 fs
    (a2, s :: ss)

/-- A freshly configured acquisition object (constructor, Acquisition.cpp:40-61, plus the settings the
plugin makes before starting, FileWriterPlugin.cpp:192-224). -/
def fresh (geom : Geom) (naming : Filename.Cfg) (master : String) (defs : List DatasetDef)
    (total : Nat) (disk : Disk) : Acq :=
  { geom, naming, master, defs, totalFrames := total,
    framesToWrite := calcNumFrames geom total,
    framesWritten := 0, framesProcessed := 0, current := none, previous := none,
    events := [], disk := disk, attempts := 0 }

end Verif.Acq
