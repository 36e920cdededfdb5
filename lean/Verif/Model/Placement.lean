/-
Model of the frame placement arithmetic of the file writer.

Source: /repo/cpp/frameProcessor/src/Acquisition.cpp, /repo/cpp/frameProcessor/src/FileWriterPlugin.cpp.
All quantities are `size_t` in the code; they are unbounded naturals here. For geometries that are not `bad` this makes no
difference (Verif.Placement64).
-/
namespace Verif.Placement

/-- Geometry parameters of one writer process
(Acquisition.h members `concurrent_rank_`, `concurrent_processes_`, `frames_per_block_`,
`blocks_per_file_`; set in Acquisition.cpp:359-362). -/
structure Geom where
  rank : Nat
  procs : Nat
  fpb : Nat
  bpf : Nat
deriving Repr, DecidableEq

/-- Geometries for which the arithmetic divides by zero or leaves 64 bits (Acquisition.cpp:507-510, FileWriterPlugin.cpp:960-964).
What happens then is in Verif.Placement64; the models that use this one take it as undefined. -/
def Geom.bad (g : Geom) : Bool :=
  g.procs == 0 || g.fpb == 0 || decide (2 ^ 64 ≤ g.fpb * g.procs) || decide (2 ^ 64 ≤ g.bpf * g.fpb) || decide (2 ^ 64 ≤ g.rank * g.fpb)

/-- The rank test of `Acquisition::process_frame`, Acquisition.cpp:95-103: with more than one process
a frame is accepted iff its block number modulo the number of processes is the rank; with one process
every frame is accepted. -/
def acceptsOffset (g : Geom) (off : Nat) : Bool :=
  if g.procs > 1 then (off / g.fpb) % g.procs == g.rank else true

/-- `Acquisition::get_frame_offset_in_file`, Acquisition.cpp:505-516. -/
def offsetInFile (g : Geom) (off : Nat) : Nat :=
  let blockIndex := off / (g.fpb * g.procs)
  let first := blockIndex * g.fpb
  let first := if g.bpf != 0 then first % (g.bpf * g.fpb) else first
  first + off % g.fpb

/-- `Acquisition::get_file_index`, Acquisition.cpp:526-532 (only called when `blocks_per_file_ != 0`,
Acquisition.cpp:546). -/
def fileIndex (g : Geom) (off : Nat) : Nat :=
  let blockNumber := off / g.fpb
  let blockRow := blockNumber / g.procs
  let fileRow := blockRow / g.bpf
  fileRow * g.procs + g.rank

/-- `FileWriterPlugin::calc_num_frames`, FileWriterPlugin.cpp:949-973. -/
def calcNumFrames (g : Geom) (total : Nat) : Nat :=
  let blocksNeeded := total / g.fpb
  let rounds := blocksNeeded / g.procs
  let num := rounds * g.fpb
  let leftover := total - num * g.procs
  if leftover > g.rank * g.fpb then
    num + min (leftover - g.rank * g.fpb) g.fpb
  else num

end Verif.Placement
