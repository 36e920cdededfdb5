import Verif.Model.Placement
/-
The frame placement arithmetic of the file writer with the integers of C++.
Source: /repo/cpp/frameProcessor/src/Acquisition.cpp: process_frame 95-103, 114-118, 151-166, create_file 258-273, get_frame_offset_in_file 505-516,
get_file_index 526-532; FileWriterPlugin.cpp: calc_num_frames 949-973.

`size_t` is modulo 2^64. `none`: undefined, that is a division by zero or an `int` that overflows. The conversion of a `size_t` to
`int` is modulo 2^32 (as with gcc). The parameters of the geometry are `size_t`, so less than 2^64.
-/
namespace Verif.Placement64
open Placement

/-- A `size_t`. -/
def u64 (n : Nat) : Nat := n % 2 ^ 64

/-- Division and remainder of `size_t`. -/
def div (a b : Nat) : Option Nat := if b = 0 then none else some (a / b)

/-- See `div`. -/
def rem (a b : Nat) : Option Nat := if b = 0 then none else some (a % b)

/-- The rank test of `process_frame`, Acquisition.cpp:95-103. -/
def accepts (g : Geom) (off : Nat) : Option Bool :=
  if g.procs > 1 then (div off g.fpb).bind fun b => (rem b g.procs).map fun r => r == g.rank else some true

/-- Lines 509-511: the position of the block in its file. -/
def firstOf (g : Geom) (blockIndex : Nat) : Option Nat :=
  if g.bpf != 0 then rem (u64 (blockIndex * g.fpb)) (u64 (g.bpf * g.fpb)) else some (u64 (blockIndex * g.fpb))

/-- `get_frame_offset_in_file`, Acquisition.cpp:505-516. -/
def offsetIn (g : Geom) (off : Nat) : Option Nat :=
  (div off (u64 (g.fpb * g.procs))).bind fun blockIndex => (firstOf g blockIndex).bind fun first =>
    (rem off g.fpb).map fun w => u64 (first + w)

/-- `get_file_index`, Acquisition.cpp:526-532. -/
def fileOf (g : Geom) (off : Nat) : Option Nat :=
  (div off g.fpb).bind fun b => (div b g.procs).bind fun row => (div row g.bpf).map fun file => u64 (u64 (file * g.procs) + g.rank)

/-- Lines 959-972 with the frames of the whole rounds. -/
def withRest (g : Geom) (total num : Nat) : Nat :=
  if u64 (total + 2 ^ 64 - u64 (num * g.procs)) > u64 (g.rank * g.fpb) then
    u64 (num + min (u64 (total + 2 ^ 64 - u64 (num * g.procs)) - u64 (g.rank * g.fpb)) g.fpb)
  else num

/-- `calc_num_frames`, FileWriterPlugin.cpp:949-973. -/
def numFrames (g : Geom) (total : Nat) : Option Nat :=
  (div total g.fpb).bind fun blocks => (div blocks g.procs).map fun rounds => withRest g total (u64 (rounds * g.fpb))

/-- `int` from a `size_t`. -/
def toInt (n : Nat) : Int := if n % 2 ^ 32 < 2 ^ 31 then (n % 2 ^ 32 : Nat) else ((n % 2 ^ 32 : Nat) : Int) - 2 ^ 32

/-- `size_t` from an `int`. -/
def ofInt (i : Int) : Nat := (i % 2 ^ 64).toNat

/-- A product of `int`. -/
def mulI (a b : Int) : Option Int := if -(2 ^ 31) ≤ a * b ∧ a * b < 2 ^ 31 then some (a * b) else none

/-- Lines 262-269 for `frames_per_file` greater than one: the sum is compared as a `size_t`. -/
def blockFrames (wrap perFile : Int) (toWrite : Nat) : Option Nat :=
  (mulI wrap perFile).map fun p => if ofInt p > toWrite then toWrite % ofInt perFile else ofInt perFile

/-- `dset_def.num_frames`, Acquisition.cpp:260-273. -/
def datasetFrames (g : Geom) (chunk0 toWrite fileNumber : Nat) : Option Nat :=
  (div fileNumber g.procs).bind fun row =>
    if toInt (u64 (u64 (g.bpf * g.fpb) * chunk0)) > 1 then blockFrames (toInt (u64 (row + 1))) (toInt (u64 (u64 (g.bpf * g.fpb) * chunk0))) toWrite
    else some toWrite

/-- The extent test of `process_frame`, Acquisition.cpp:114-118: the last offset is put into an `int`, which is then compared as a
`size_t`. `dim0` is the length of the dataset, `unlimited` as in `get_dataset_max_size`, HDF5File.cpp:607-616. -/
def exceeds (unlimited : Bool) (dim0 off : Nat) : Bool :=
  (toInt (u64 ((if unlimited then 0 else dim0) + (2 ^ 64 - 1))) != 0) &&
    decide (off > ofInt (toInt (u64 ((if unlimited then 0 else dim0) + (2 ^ 64 - 1)))))

/-- `frames_written_` after a frame, Acquisition.cpp:152-165: `index` of the current file, `actual` size of its dataset. -/
def written (g : Geom) (index actual before : Nat) : Option Nat :=
  (div index g.procs).map fun row =>
    if u64 (u64 (u64 (row * g.fpb) * g.bpf) + actual) > before then u64 (u64 (u64 (row * g.fpb) * g.bpf) + actual) else before

end Verif.Placement64
