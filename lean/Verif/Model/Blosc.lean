/-
Model of the settings of the compression plugin.
Source: /repo/cpp/frameProcessor/src/BloscPlugin.cpp: constructor 55-78, compress_frame 95-155,
update_compression_settings 160-183, process_frame 217-235, configure 241-309.

The compressor itself is not modelled: a compressed frame is the settings it was compressed with. Level and
shuffle are passed with each call; the compressor is a global setting of the library.
-/
namespace Verif.Blosc

/-- `BloscCompressionSettings` without the sizes, which are set per frame. -/
structure Settings where
  level : Int
  shuffle : Nat
  threads : Nat
  compressor : Nat
deriving DecidableEq, Repr

structure State where
  commanded : Settings
  latched : Settings          -- compression_settings_
  library : Nat               -- compressor selected in the library
  acq : String                -- current_acquisition_
deriving DecidableEq, Repr

/-- Constructor: LZ4 = 1, bit shuffle = 2, level 1, one thread. -/
def init : State :=
  { commanded := ⟨1, 2, 1, 1⟩, latched := ⟨1, 2, 1, 1⟩, library := 1, acq := "" }

/-- `update_compression_settings`, 160-183; `avail`: compressors compiled into the library. The flag is
false if it throws. -/
def update (avail : Nat → Bool) (s : State) : State × Bool :=
  if avail s.commanded.compressor then
    ({ s with latched := s.commanded, library := s.commanded.compressor }, true)
  else ({ s with latched := s.commanded }, false)

/-- A configuration message: the four parameters, absent, of a wrong type (`some none`), or a value. -/
structure Msg where
  level : Option (Option Int) := none
  shuffle : Option (Option Nat) := none
  threads : Option (Option Nat) := none
  compressor : Option (Option Nat) := none
deriving DecidableEq, Repr

/-- `BLOSC_BITSHUFFLE`, `BLOSC_MAX_THREADS`, `BLOSC_ZSTD`. -/
def maxShuffle : Nat := 2
def maxThreads : Nat := 256
def maxCompressor : Nat := 5

/-- Lines 250-264, 268-279, 281-290, 292-303: the value that is stored. -/
def clampLevel (n : Int) : Int := if n < 1 then 1 else if n > 9 then 9 else n
def clampShuffle (n : Nat) : Nat := if n > maxShuffle then 0 else n
def clampThreads (n : Nat) : Nat := if n > maxThreads then 8 else n
def clampCompressor (n : Nat) : Nat := if n > maxCompressor then 1 else n

/-- One parameter: store it and update at once while there is no acquisition. -/
def store (avail : Nat → Bool) (s : State) (c : Settings) : State × Bool :=
  if s.acq = "" then update avail { s with commanded := c } else ({ s with commanded := c }, true)

/-- One optional parameter; nothing happens after an exception. -/
def item {α} (avail : Nat → Bool) (v : Option (Option α)) (f : α → Settings → Settings) :
    State × Bool → State × Bool
  | (s, false) => (s, false)
  | (s, true) =>
    match v with
    | none => (s, true)
    | some none => (s, false)
    | some (some x) => store avail s (f x s.commanded)

/-- `configure`, 241-309. -/
def configure (avail : Nat → Bool) (s : State) (m : Msg) : State × Bool :=
  item avail m.compressor (fun n c => { c with compressor := clampCompressor n })
    (item avail m.threads (fun n c => { c with threads := clampThreads n })
      (item avail m.shuffle (fun n c => { c with shuffle := clampShuffle n })
        (item avail m.level (fun n c => { c with level := clampLevel n }) (s, true))))

/-- What a frame is compressed with. -/
structure Compressed where
  level : Int
  shuffle : Nat
  compressor : Nat
  threads : Nat
deriving DecidableEq, Repr

/-- `compress_frame`, 95-155. -/
def compress (s : State) : Compressed :=
  { level := s.latched.level, shuffle := s.latched.shuffle, compressor := s.library,
    threads := s.latched.threads }

/-- `process_frame`, 217-235; `none`: an exception, the frame is lost. -/
def processFrame (avail : Nat → Bool) (s : State) (id : String) : State × Option Compressed :=
  if id ≠ s.acq then
    match update avail { s with acq := id } with
    | (s', true) => (s', some (compress s'))
    | (s', false) => (s', none)
  else (s, some (compress s))

inductive Op
  | config (m : Msg)
  | frame (id : String)
deriving DecidableEq, Repr

/-- The output of frames is what they were compressed with; messages have no output. -/
def step (avail : Nat → Bool) (s : State) : Op → State × Option Compressed
  | .config m => ((configure avail s m).1, none)
  | .frame id => processFrame avail s id

/-- A history: the state at the end and the output of every operation. -/
def run (avail : Nat → Bool) (s : State) : List Op → State × List (Option Compressed)
  | [] => (s, [])
  | o :: os =>
    let r := step avail s o
    let r' := run avail r.1 os
    (r'.1, r.2 :: r'.2)

end Verif.Blosc
