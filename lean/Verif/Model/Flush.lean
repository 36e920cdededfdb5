/-
Model of the flushing of a dataset, which is what lets a program that reads the file while it is written see what
has been written (SWMR).
Source: /repo/cpp/frameProcessor/src/HDF5File.cpp: write_frame 254-273, write_parameter 358-395, close_file 191-215,
start_swmr 658-666; HDF5File.h:110.

A dataset is the list of what was written into it, with the time of writing, and how much of the list a reader sees for
certain. `H5Dflush` concerns one dataset, so one dataset is modelled. Times are microseconds of the local clock
(`microsec_clock::local_time`), which may be set back. The library is at least 1.9.178 (line 364). A write that fails
before the value is stored is no step.
-/
namespace Verif.Flush

/-- A dataset: what was written and when, how many of these a reader sees, and `last_flushed`. -/
structure Ds where
  written : List (Nat × Int) := []
  seen : Nat := 0
  last : Option Int := none
deriving DecidableEq, Repr

/-- A value written by `write_frame` or by `write_parameter`. `now`: the clock at line 366; `again`: the clock at line
378, read a second time; `ok`: `H5Dflush` succeeds. -/
inductive Op
  | frame (v : Nat) (now : Int) (ok : Bool)
  | param (v : Nat) (now again : Int) (ok : Bool)
deriving DecidableEq, Repr

/-- `H5Dflush`. If it fails an exception is thrown (lines 271, 392). -/
def Ds.flush (d : Ds) (ok : Bool) : Ds := if ok then { d with seen := d.written.length } else d

/-- The value is stored. -/
def Ds.store (d : Ds) (v : Nat) (now : Int) : Ds := { d with written := d.written ++ [(v, now)] }

/-- Whether a parameter is to be flushed, HDF5File.cpp:365-386: `total_milliseconds` drops the rest. -/
def due (last : Option Int) (now : Int) : Bool :=
  match last with
  | none => true
  | some l => decide ((now - l).tdiv 1000 > 1000)

/-- The new `last_flushed`, HDF5File.cpp:378, 384: set before the flush, and in any version. -/
def stamp (last : Option Int) (now again : Int) : Option Int :=
  match last with
  | none => some now
  | some l => if due (some l) now then some again else some l

/-- One write; `earliest`: `use_earliest_version_`. -/
def step (earliest : Bool) (d : Ds) : Op → Ds
  | .frame v now ok => if earliest then d.store v now else (d.store v now).flush ok
  | .param v now again ok =>
    if due d.last now && !earliest then { (d.store v now).flush ok with last := stamp d.last now again }
    else { d.store v now with last := stamp d.last now again }

/-- Writes one after the other. -/
def run (earliest : Bool) (ops : List Op) : Ds := ops.foldl (step earliest) {}

/-- `close_file`, HDF5File.cpp:191-215, if the library succeeds: closing a file writes all there is. -/
def close (d : Ds) : Ds := { d with seen := d.written.length }

end Verif.Flush
