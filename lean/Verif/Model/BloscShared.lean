import Verif.Model.Blosc
/-
Model of several compression plugins in one process.
Source: /repo/cpp/frameProcessor/src/BloscPlugin.cpp: constructor 55-78, compress_frame 95-155,
update_compression_settings 160-183, process_frame 217-235, configure 241-309, status 331-337.

The compressor and the number of threads are settings of the library (`blosc_set_compressor`, `blosc_set_nthreads`), of which
there is one in the process; level and shuffle are passed with each call. The operations are atomic here: each plugin has its
own mutex, so two of them can also be inside the library at the same time, which is not modelled.
-/
namespace Verif.BloscShared
open Verif.Blosc (Settings Msg Compressed clampLevel clampShuffle clampThreads clampCompressor)

/-- A plugin: `commanded_compression_settings_`, `compression_settings_`, `current_acquisition_`. -/
structure Plug where
  commanded : Settings := ⟨1, 2, 1, 1⟩
  latched : Settings := ⟨1, 2, 1, 1⟩
  acq : String := ""
deriving DecidableEq, Repr

/-- The settings of the library. -/
structure Lib where
  compressor : Nat := 1
  threads : Nat := 1
deriving DecidableEq, Repr

structure St where
  plug : Nat → Option Plug
  lib : Lib

/-- `update_compression_settings`, 160-183: the number of threads is set only if the compressor could be. -/
def update (avail : Nat → Bool) (p : Plug) (l : Lib) : (Plug × Lib) × Bool :=
  if avail p.commanded.compressor then
    (({ p with latched := p.commanded }, ⟨p.commanded.compressor, p.commanded.threads⟩), true)
  else (({ p with latched := p.commanded }, l), false)

/-- A parameter of a message, 245-309: stored, and used at once while there is no acquisition. -/
def item {α} (avail : Nat → Bool) (v : Option (Option α)) (f : α → Settings → Settings) :
    (Plug × Lib) × Bool → (Plug × Lib) × Bool
  | (x, false) => (x, false)
  | ((p, l), true) =>
    match v with
    | none => ((p, l), true)
    | some none => ((p, l), false)
    | some (some a) =>
      if p.acq = "" then update avail { p with commanded := f a p.commanded } l
      else (({ p with commanded := f a p.commanded }, l), true)

/-- `configure`, 241-309; false: it throws. -/
def configure (avail : Nat → Bool) (p : Plug) (l : Lib) (m : Msg) : (Plug × Lib) × Bool :=
  item avail m.compressor (fun n c => { c with compressor := clampCompressor n })
    (item avail m.threads (fun n c => { c with threads := clampThreads n })
      (item avail m.shuffle (fun n c => { c with shuffle := clampShuffle n })
        (item avail m.level (fun n c => { c with level := clampLevel n }) ((p, l), true))))

/-- `process_frame`, 217-235, up to the compression: new acquisitions take the commanded settings. -/
def enter (avail : Nat → Bool) (p : Plug) (l : Lib) (id : String) : (Plug × Lib) × Bool :=
  if id ≠ p.acq then update avail { p with acq := id } l else ((p, l), true)

/-- `compress_frame`, 95-155. -/
def compress (p : Plug) (l : Lib) : Compressed :=
  { level := p.latched.level, shuffle := p.latched.shuffle, compressor := l.compressor, threads := l.threads }

/-- The constructor, 55-78; without LZ4 in the library the compressor stays what it was. -/
def construct (avail : Nat → Bool) (l : Lib) : Plug × Lib := ({}, ⟨if avail 1 then 1 else l.compressor, 1⟩)

inductive Op
  | load (i : Nat)
  | config (i : Nat) (m : Msg)
  | frame (i : Nat) (id : String)
deriving DecidableEq, Repr

def St.set (s : St) (i : Nat) (p : Plug) (l : Lib) : St := { plug := fun j => if j = i then some p else s.plug j, lib := l }

/-- The output of a frame is what it was compressed with, if it was. -/
def step (avail : Nat → Bool) (s : St) : Op → St × Option Compressed
  | .load i => (s.set i (construct avail s.lib).1 (construct avail s.lib).2, none)
  | .config i m =>
    match s.plug i with
    | none => (s, none)
    | some p => (s.set i (configure avail p s.lib m).1.1 (configure avail p s.lib m).1.2, none)
  | .frame i id =>
    match s.plug i with
    | none => (s, none)
    | some p =>
      let r := enter avail p s.lib id
      (s.set i r.1.1 r.1.2, if r.2 then some (compress r.1.1 r.1.2) else none)

def run (avail : Nat → Bool) (s : St) : List Op → St
  | [] => s
  | o :: os => run avail (step avail s o).1 os

/-- No plugin loaded; the library has its own defaults. -/
def init (l : Lib) : St := { plug := fun _ => none, lib := l }

end Verif.BloscShared
