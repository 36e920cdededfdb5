import Verif.Model.Definitions
/-
Model of one HDF5 dataset, with library calls that may fail.
Source: /repo/cpp/frameProcessor/src/HDF5File.cpp: write_frame 228-281, write_parameter 291-395, create_dataset 404-546,
extend_dataset 583-591; /repo/cpp/frameProcessor/src/Acquisition.cpp 124-137; FrameMetaData.h 43-63.

Positions are rows of the first dimension, as `hsize_t` (64 bits). What is stored in one row is a number; a frame is
stored in the first of its rows. The library refuses a chunk that does not start at a multiple of the chunk size or
starts outside the extent; `edge`: it takes one that starts just behind the extent (older versions). It refuses a value
outside the extent.
-/
namespace Verif.Dataset

/-- Arithmetic of `hsize_t` and `size_t`. -/
def u64 (n : Nat) : Nat := n % 18446744073709551616

/-- A dataset: `dataset_dimensions[0]`, the extent in the file, `actual_dataset_size_`, the first chunk dimension of the
definition and of the dataset, the number of dimensions, and what is stored. -/
structure Ds where
  unlimited : Bool
  recorded : Nat
  extent : Nat
  actual : Nat := 0
  mult : Nat
  chunk : Nat
  rank : Nat
  cells : Nat → Option Nat := fun _ => none

/-- What the library does during one write: `H5Dset_extent` succeeds, the call that stores succeeds (and those before
it), those after it succeed. -/
structure Lib where
  ext : Bool := true
  store : Bool := true
  after : Bool := true
  deriving DecidableEq, Repr

/-- What becomes of a write: done, an exception after the value was stored, an exception without. -/
inductive Out
  | ok
  | stored
  | refused
  | ub                                  -- reads past an array
  deriving DecidableEq, Repr

/-- `create_dataset`, HDF5File.cpp:419-447, 536-538, for the first dimension; `chunk0` is validated not to be zero. -/
def create (unlimited : Bool) (frames chunk0 rank : Nat) : Ds :=
  if unlimited then { unlimited := true, recorded := 1, extent := 1, mult := chunk0, chunk := chunk0, rank := rank }
  else { unlimited := false, recorded := frames, extent := frames, mult := chunk0, chunk := min chunk0 frames, rank := rank }

/-- `extend_dataset`, HDF5File.cpp:583-591, if the dataset is unlimited: the size is recorded before the library is
called. The flag says that it threw. -/
def extend (d : Ds) (ok : Bool) (n : Nat) : Ds × Bool :=
  if d.unlimited = true ∧ n > d.recorded then
    if ok then ({ d with recorded := n, extent := n }, false) else ({ d with recorded := n }, true)
  else (d, false)

def Ds.put (d : Ds) (pos v : Nat) : Ds := { d with cells := fun p => if p = pos then some v else d.cells p }

/-- HDF5File.cpp:278-280. -/
def Ds.note (d : Ds) (e : Nat) : Ds := if e > d.actual then { d with actual := e } else d

/-- `write_frame`, HDF5File.cpp:246-280, after the dataset was found. -/
def writeFrame (edge : Bool) (d : Ds) (lib : Lib) (slot outer v : Nat) : Ds × Out :=
  match extend d lib.ext (u64 ((slot + 1) * d.mult)) with
  | (d, true) => (d, .refused)
  | (d, false) =>
    let pos := u64 (slot * d.mult)
    if (pos < d.extent ∨ (edge = true ∧ pos = d.extent)) ∧ pos % d.chunk = 0 ∧ lib.store = true then
      if lib.after then ((d.put pos v).note (u64 (pos + outer)), .ok) else (d.put pos v, .stored)
    else (d, .refused)

/-- One call. -/
structure W where
  slot : Nat
  outer : Nat
  value : Nat
  lib : Lib
  deriving DecidableEq, Repr

/-- Frames written to a dataset one after the other, and what became of them. -/
def run (edge : Bool) : List W → Ds → Ds × List (W × Out)
  | [], d => (d, [])
  | w :: l, d =>
    let r := writeFrame edge d w.lib w.slot w.outer w.value
    let q := run edge l r.1
    (q.1, (w, r.2) :: q.2)

/-! ## Parameters -/

/-- A parameter of a frame, a `boost::any`. -/
inductive Any
  | u8 (n : Nat) | u16 (n : Nat) | u32 (n : Nat) | u64 (n : Nat) | float (n : Nat)
  | other                               -- any other type, for example `int`, `double` or a string
  deriving DecidableEq, Repr

/-- The switch of `write_parameter`, HDF5File.cpp:303-335: `get_parameter` throws if the type is not exactly the one
asked for. -/
def value (t : DataType) (a : Any) : Option Nat :=
  match t, a with
  | .raw8, .u8 n => some n
  | .raw16, .u16 n => some n
  | .raw32, .u32 n => some n
  | .raw64, .u64 n => some n
  | .rawFloat, .float n => some n
  | .rawUnknown, .u16 n => some n
  | _, _ => none

/-- `write_parameter`, HDF5File.cpp:303-395, after the dataset was found. The hyperslab is given one element of `count`
for a dataset of any rank (lines 351, 356). -/
def writeParam (d : Ds) (t : DataType) (a : Any) (lib : Lib) (slot : Nat) : Ds × Out :=
  match value t a with
  | none => (d, .refused)
  | some v =>
    match extend d lib.ext (u64 (slot + 1)) with
    | (d, true) => (d, .refused)
    | (d, false) =>
      if d.rank ≠ 1 then (d, .ub)
      else if slot < d.extent ∧ lib.store = true then (d.put slot v, if lib.after then .ok else .stored)
      else (d, .refused)

/-- `hdf5_datasets_`. -/
abbrev File := String → Option Ds

def File.set (f : File) (n : String) (d : Ds) : File := fun m => if m = n then some d else f m

/-- The loop over the parameters of a frame, Acquisition.cpp:128-137: `dataset_defs_` gives the type for a name. A
parameter without a definition is skipped; an exception ends the loop. -/
def params (defs : String → Option DataType) (slot : Nat) : File → List (String × Any × Lib) → File × Out
  | f, [] => (f, .ok)
  | f, (n, a, lib) :: ps =>
    match defs n with
    | none => params defs slot f ps
    | some t =>
      match f n with
      | none => (f, .refused)
      | some d =>
        match writeParam d t a lib slot with
        | (d, .ok) => params defs slot (f.set n d) ps
        | (d, o) => (f.set n d, o)

/-- A frame: its dataset, place, `get_outer_chunk_size`, image, and parameters in the order of the map. -/
structure Fr where
  dataset : String
  slot : Nat
  outer : Nat
  image : Nat
  lib : Lib
  pars : List (String × Any × Lib)

/-- Acquisition.cpp:124-137. -/
def frame (edge : Bool) (defs : String → Option DataType) (f : File) (x : Fr) : File × Out :=
  match f x.dataset with
  | none => (f, .refused)
  | some d =>
    match writeFrame edge d x.lib x.slot x.outer x.image with
    | (d, .ok) => params defs x.slot (f.set x.dataset d) x.pars
    | (d, o) => (f.set x.dataset d, o)

/-- Frames one after the other. -/
def frames (edge : Bool) (defs : String → Option DataType) : List Fr → File → File × List Out
  | [], f => (f, [])
  | x :: l, f =>
    let r := frame edge defs f x
    let q := frames edge defs l r.1
    (q.1, r.2 :: q.2)

end Verif.Dataset
