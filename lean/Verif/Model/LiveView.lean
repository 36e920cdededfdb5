import Verif.Model.StdMap
/-
Model of the frame selection of the live view plugin.
Source: /repo/cpp/frameProcessor/src/LiveViewPlugin.cpp: process_frame 60-143, pass_live_frame (time stamp
only) 228-298, set_per_second_config 343-356, set_frame_freq_config 362-373, set_dataset_name_config 412-436.

Times are microseconds. A list of dataset names or tags is given after splitting and trimming. The contents of
the displayed message are in Model/Headers.lean; the socket is not modelled (`bound` is `is_bound_`).
-/
namespace Verif.LiveView
open Verif.StdMap

structure State where
  bound : Bool := false
  datasets : Map Int := []       -- std::map<std::string, int> datasets_
  tags : List String := []
  freq : Int := 1                -- int32_t frame_freq_
  perSecond : Int := 0           -- int32_t per_second_
  between : Int := 0             -- time_between_frames_
  last : Option Int := none      -- time_last_frame_, `none`: min_date_time
deriving DecidableEq, Repr

structure Frame where
  dataset : String
  params : List String := []     -- names of the frame parameters
deriving DecidableEq, Repr

/-- `uint32_t` to `int`, line 112. -/
def toInt (n : Nat) : Int := if n < 2147483648 then (n : Int) else (n : Int) - 4294967296

/-- The dataset filter, line 70, and the tag filter, lines 73-89. -/
def selected (s : State) (f : Frame) : Bool :=
  s.bound && (s.datasets.isEmpty || (find s.datasets f.dataset).isSome) &&
    (s.tags.isEmpty || s.tags.any (fun t => f.params.contains t))

/-- The rate test, lines 94-102. -/
def rateOk (s : State) (now : Int) : Bool :=
  s.perSecond != 0 && (match s.last with | none => true | some t => decide (now - t > s.between))

/-- The frequency test, line 114. -/
def freqOk (s : State) (count : Int) : Bool := s.freq != 0 && count.tmod s.freq == 0

inductive Out
  | passed (displayed : Bool)    -- the frame is pushed, line 142
  | ub
deriving DecidableEq, Repr

/-- Lines 114-123. -/
def display (s : State) (count now1 now2 : Int) : State × Out :=
  if rateOk s now1 || freqOk s count then ({ s with last := some now2 }, .passed true)
  else (s, .passed false)

/-- Lines 105-123: the dataset's own count, which overflows at INT_MAX, or the static count. The remainder of the smallest `int`
and -1, line 114, is undefined. -/
def counted (s : State) (static : Nat) (f : Frame) (now1 now2 : Int) : Option Int → State × Nat × Out
  | some c =>
    if c = 2147483647 then (s, static, .ub)
    else
      let r := display { s with datasets := set s.datasets f.dataset (c + 1) } c now1 now2
      (r.1, static, r.2)
  | none =>
    if static = 2147483648 ∧ s.freq = -1 then (s, static, .ub)
    else
      let r := display s (toInt static) now1 now2
      (r.1, (static + 1) % 4294967296, r.2)

/-- `process_frame`, lines 60-143. `static` is the function's static variable, shared by all plugins of this
class in the process; `now1`, `now2`: the clock in the rate test and after displaying. -/
def processFrame (s : State) (static : Nat) (f : Frame) (now1 now2 : Int) : State × Nat × Out :=
  if selected s f then counted s static f now1 now2 (find s.datasets f.dataset)
  else (s, static, .passed false)

/-- `set_per_second_config`. -/
def setPerSecond (s : State) (v : Int) : State :=
  if v = 0 then { s with perSecond := v } else { s with perSecond := v, between := Int.tdiv 1000 v * 1000 }

/-- `set_frame_freq_config`. -/
def setFreq (s : State) (v : Int) : State := { s with freq := v }

/-- `set_dataset_name_config`. -/
def setDatasets (s : State) (names : List String) : State :=
  { s with datasets := names.foldl (fun m n => set m n 0) [] }

/-! All live view plugins of a process. -/

structure Sys where
  plugin : Nat → State
  static : Nat := 0

/-- A frame arriving at plugin `who`. -/
structure Ev where
  who : Nat
  frame : Frame
  now1 : Int := 0
  now2 : Int := 0

def step (y : Sys) (e : Ev) : Sys × Out :=
  let r := processFrame (y.plugin e.who) y.static e.frame e.now1 e.now2
  ({ plugin := fun k => if k = e.who then r.1 else y.plugin k, static := r.2.1 }, r.2.2)

def after (y : Sys) (es : List Ev) : Sys := es.foldl (fun y e => (step y e).1) y

end Verif.LiveView
