/-
Model of the HDF5 handles of a file.
Source: /repo/cpp/frameProcessor/src/HDF5File.cpp: ensure_h5_result 16-18, constructor and destructor 27-53,
handle_h5_error 76-99, create_file 128-186, close_file 193-217, write_frame 228-281, write_parameter 291-395,
create_dataset 404-546, extend_dataset 583-591, start_swmr 658-666 (called in the newer versions of the file format only).

Every call of the HDF5 library may fail. A failed call throws at once (handle_h5_error, line 98), so the lines after
`ensure_h5_result` that handle a negative result (168-175, 505-513) are never reached; a failed `H5Acreate2` (lines
520, 527) is not checked, but makes the `H5Awrite` after it fail. Closing a handle that is not open fails. A handle is
given by what it is for; a failed close leaves it open. Files are closed with `H5F_CLOSE_STRONG` (line 141), which
closes the objects in the file, but not property lists and dataspaces. Which data are written is not modelled.
-/
namespace Verif.Handles

/-- What a handle is for. -/
inductive Kind
  | fapl | fcpl | file | mem | dataspace | prop | dapl | attrSpace | attr | fspace
  | dset (name : String)
  deriving DecidableEq, Repr

/-- The places where the library is called. -/
inductive Call
  | pcreateFapl | setDegree | setAlign | setLibver | pcreateFcpl | fcreate | pcloseFapl | pcloseFcpl | screateMem
  | screateSpace | pcreateProp | setFilter | setChunk | setFill | pcreateDapl | dcreate
  | screateLow | acreateLow | awriteLow | acloseLow | scloseLow
  | screateHigh | acreateHigh | awriteHigh | acloseHigh | scloseHigh
  | pcloseProp | pcloseDapl | scloseSpace
  | setExtent | writeChunk | dflush | dgetSpace | selectSlab | dwrite | scloseFspace | startSwmr
  | dclose (name : String) | fclose | scloseMem
  deriving DecidableEq, Repr

/-- The open handles, the members `hdf5_file_id_` and `param_memspace_` (is there a handle in them), the names in
`hdf5_datasets_` in the order of the map, and the datasets in the file. -/
structure H where
  openH : List Kind := []
  file : Bool := false
  mem : Bool := false
  dsets : List String := []
  names : List String := []
  deriving DecidableEq, Repr

/-- What a call does if it succeeds; `enter` and `clear` are not calls of the library. -/
inductive Act
  | use
  | make (k : Kind)
  | drop (k : Kind)
  | enter (name : String)               -- line 539
  | clear                               -- line 205
  deriving DecidableEq, Repr

structure Instr where
  call : Option Call
  act : Act
  deriving DecidableEq, Repr

/-- Objects that live in a file. -/
def owned : Kind → Bool
  | .file => true
  | .attr => true
  | .dset _ => true
  | _ => false

/-- A new handle, and where it is kept. A dataset needs an open file without one of that name. -/
def make (s : H) (k : Kind) : Option H :=
  match k with
  | .file => some { s with openH := .file :: s.openH, file := true, names := [] }
  | .mem => some { s with openH := .mem :: s.openH, mem := true }
  | .dset n =>
    if s.file && !s.names.contains n then some { s with openH := .dset n :: s.openH, names := n :: s.names } else none
  | .attr => if s.file then some { s with openH := .attr :: s.openH } else none
  | k => some { s with openH := k :: s.openH }

/-- Closing a handle. -/
def drop (s : H) (k : Kind) : Option H :=
  match k with
  | .file =>
    if s.openH.contains .file then some { s with openH := s.openH.filter (fun k => !owned k), file := false } else none
  | k => if s.openH.contains k then some { s with openH := s.openH.erase k } else none

/-- A new name in a `std::map`. -/
def insertName (n : String) : List String → List String
  | [] => [n]
  | m :: l => if n < m then n :: m :: l else m :: insertName n l

def act (s : H) : Act → Option H
  | .use => some s
  | .make k => make s k
  | .drop k => drop s k
  | .enter n => some { s with dsets := insertName n s.dsets }
  | .clear => some { s with dsets := [] }

/-- Run the calls of a function up to the first that fails, and name that one. `fails` is what the library decides. -/
def exec (fails : Call → Bool) : List Instr → H → H × Option Call
  | [], s => (s, none)
  | ⟨none, a⟩ :: p, s => exec fails p ((act s a).getD s)
  | ⟨some c, a⟩ :: p, s =>
    if fails c then (s, some c)
    else match act s a with
      | none => (s, some c)
      | some s => exec fails p s

def call (c : Call) (a : Act) : Instr := ⟨some c, a⟩

/-- `create_file`, lines 136-181. -/
def createFile : List Instr :=
  [call .pcreateFapl (.make .fapl), call .setDegree .use, call .setAlign .use, call .setLibver .use,
   call .pcreateFcpl (.make .fcpl), call .fcreate (.make .file), call .pcloseFapl (.drop .fapl),
   call .pcloseFcpl (.drop .fcpl), call .screateMem (.make .mem)]

/-- The attributes, lines 516-532. -/
def attributes : List Instr :=
  [call .screateLow (.make .attrSpace), call .acreateLow (.make .attr), call .awriteLow .use, call .acloseLow (.drop .attr),
   call .scloseLow (.drop .attrSpace),
   call .screateHigh (.make .attrSpace), call .acreateHigh (.make .attr), call .awriteHigh .use, call .acloseHigh (.drop .attr),
   call .scloseHigh (.drop .attrSpace)]

/-- `create_dataset`, lines 431-545. -/
def createDataset (name : String) (filter indexes : Bool) : List Instr :=
  [call .screateSpace (.make .dataspace), call .pcreateProp (.make .prop)] ++
  (if filter then [call .setFilter .use] else []) ++
  [call .setChunk .use, call .setFill .use, call .pcreateDapl (.make .dapl), call .dcreate (.make (.dset name))] ++
  (if indexes then attributes else []) ++
  [⟨none, .enter name⟩, call .pcloseProp (.drop .prop), call .pcloseDapl (.drop .dapl), call .scloseSpace (.drop .dataspace)]

/-- `write_frame`, lines 245-272. -/
def writeFrame (extend flush : Bool) : List Instr :=
  (if extend then [call .setExtent .use] else []) ++ [call .writeChunk .use] ++ (if flush then [call .dflush .use] else [])

/-- `write_parameter`, lines 339-393. -/
def writeParameter (extend flush : Bool) : List Instr :=
  (if extend then [call .setExtent .use] else []) ++
  [call .dgetSpace (.make .fspace), call .selectSlab .use, call .dwrite .use, call .scloseFspace (.drop .fspace)] ++
  (if flush then [call .dflush .use] else [])

/-- `close_file`, lines 198-213. -/
def closeFile (s : H) : List Instr :=
  if s.file then
    s.dsets.map (fun n => call (.dclose n) (.drop (.dset n))) ++ [⟨none, .clear⟩, call .fclose (.drop .file)]
  else []

/-- The destructor, lines 47-53. -/
def destroy (s : H) : List Instr :=
  closeFile s ++ if s.mem then [call .scloseMem (.drop .mem)] else []

/-- Calls of the member functions. -/
inductive Op
  | dataset (name : String) (chunksOk filter indexes : Bool)
  | frame (name : String) (extend flush : Bool)
  | param (name : String) (typeOk extend flush : Bool)
  | swmr
  | close
  deriving DecidableEq, Repr

/-- The library calls they make. A wrong number of chunk dimensions (line 423), a dataset not in the map (line 559) and
a parameter of the wrong type (FrameMetaData.h:49-62) throw before any. -/
def Op.calls (s : H) : Op → List Instr
  | .dataset n ok f i => if ok then createDataset n f i else []
  | .frame n e f => if s.dsets.contains n then writeFrame e f else []
  | .param n ok e f => if ok && s.dsets.contains n then writeParameter e f else []
  | .swmr => [call .startSwmr .use]
  | .close => closeFile s

/-- The calls of a life after `create_file`, each with what the library decides; the failed calls are collected. -/
def life : List (Op × (Call → Bool)) → H → H × List Call
  | [], s => (s, [])
  | (op, fails) :: l, s =>
    let r := exec fails (op.calls s) s
    let q := life l r.1
    (q.1, r.2.toList ++ q.2)

/-- The life of a file object up to its destruction, with the failed calls; the library fails no call of the
destructor. The last component says whether the destructor threw. -/
def whole (fails : Call → Bool) (ops : List (Op × (Call → Bool))) : H × List Call × Bool :=
  let r := exec fails createFile {}
  let q := life ops r.1
  let e := exec (fun _ => false) (destroy q.1) q.1
  (e.1, r.2.toList ++ q.2, e.2.isSome)

end Verif.Handles
