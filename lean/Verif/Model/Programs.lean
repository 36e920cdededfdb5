/-
Model of the three programs from the command line to the exit status.
Source: /repo/cpp/frameProcessor/src/FrameProcessorApp.cpp: parse_arguments 72-178, run 180-257, configure_controller 266-274, main 276-299;
/repo/cpp/frameReceiver/src/FrameReceiverApp.cpp: parse_arguments 79-194, run 202-289, main 309-336;
/repo/cpp/frameSimulator/src/FrameSimulatorApp.cpp: get_requested_plugin 47-64, parse_arguments 83-211, main 213-240.

What a step does (boost::program_options, log4cxx, the controller, the plugin) is an argument: it succeeds or throws. What is modelled is which steps
are made, which exceptions are caught, and what is returned. Signals and crashes are not modelled (see `Verif.Model.Signals`).
-/
namespace Verif.Programs

/-- What is thrown. Exceptions of OdinData, log4cxx and boost::program_options are std::exceptions, but not std::runtime_errors. -/
inductive Exn where
  | odin | runtime | std | other
  deriving DecidableEq, Repr

inductive Step where
  | ok
  | throws (e : Exn)
  deriving DecidableEq, Repr

/-- How a program ends: with a status, or by std::terminate. -/
inductive Exit where
  | status (n : Int)
  | terminate
  deriving DecidableEq, Repr

/-- What the command line of the processor or the receiver says. -/
structure Args where
  options : Step              -- parse_command_line, store and notify
  help : Bool
  version : Bool
  logConfig : Option Step     -- the logging configuration, if one is given

/-- The handlers of `parse_arguments`, FrameProcessorApp.cpp:72-178 and FrameReceiverApp.cpp:79-194: the code that is returned, or `none` if an exception leaves it. -/
def caught : Exn → Option Int
  | .other => none
  | _ => some 1

/-- `parse_arguments`, FrameProcessorApp.cpp:72-178 and FrameReceiverApp.cpp:79-194. -/
def parseArguments (a : Args) : Option Int :=
  match a.options with
  | .throws e => caught e
  | .ok =>
    if a.help then some 0
    else if a.version then some 0
    else match a.logConfig with
      | some (.throws e) => caught e
      | _ => some (-1)

/-- How a configuration is taken: it is applied, refused in the reply, or an exception leaves `configure`. -/
inductive Conf where
  | applied | refused
  | throws (e : Exn)
  deriving DecidableEq, Repr

/-- The configuration file. -/
inductive File where
  | none                    -- no file is given
  | empty                   -- the file is missing, cannot be read, or is empty
  | malformed               -- a syntax error
  | array (l : List Conf)
  | single (c : Conf)       -- anything else
  deriving DecidableEq, Repr

/-- What a run meets. -/
structure Env where
  construct : Step          -- the constructor of the controller
  endpoint : Conf           -- the configuration with the endpoints
  file : File
  runs : Step               -- `controller_->run()`

/-- What a run did. -/
structure Result where
  exit : Exit
  applied : Nat             -- configurations of the file that were applied
  ran : Bool                -- `controller_->run()` was called
  deriving DecidableEq, Repr

/-- A list of configurations: how many were applied, and what was thrown; `swallow` says which exceptions are caught by `configure_controller`. -/
def submit (swallow : Exn → Bool) : List Conf → Nat × Option Exn
  | [] => (0, none)
  | .applied :: l => ((submit swallow l).1 + 1, (submit swallow l).2)
  | .refused :: l => submit swallow l
  | .throws e :: l => if swallow e then submit swallow l else (0, some e)

/-- The exceptions that end `run` of the processor with status 1, FrameProcessorApp.cpp:246-254. -/
def processorCatches : Exn → Bool
  | .other => false
  | _ => true

/-- `catch (const std::runtime_error&)`, FrameProcessorApp.cpp:271. -/
def processorSwallows : Exn → Bool
  | .runtime => true
  | _ => false

/-- An exception in the try block of `run`. -/
def failed (catches : Exn → Bool) (e : Exn) (applied : Nat) (ran : Bool) : Result :=
  ⟨if catches e then .status 1 else .terminate, applied, ran⟩

/-- `controller_->run()` and what follows. -/
def finish (catches : Exn → Bool) (applied : Nat) : Step → Result
  | .ok => ⟨.status 0, applied, true⟩
  | .throws e => failed catches e applied true

/-- What follows the file, FrameProcessorApp.cpp:224-245. -/
def afterFile (catches : Exn → Bool) (runs : Step) (r : Nat × Option Exn) : Result :=
  match r.2 with
  | some e => failed catches e r.1 false
  | none => finish catches r.1 runs

/-- What the single object in the file becomes for the processor: the message that is submitted is an empty one, FrameProcessorApp.cpp:223 and 233-238 (see C78),
which is applied without effect. -/
def processorSingle (_ : Conf) : Nat × Option Exn := (0, none)

/-- `FrameProcessorApp::run`, FrameProcessorApp.cpp:180-257. -/
def processorRun (v : Env) : Result :=
  match v.construct with
  | .throws _ => ⟨.terminate, 0, false⟩
  | .ok =>
    match v.endpoint with
    | .throws e => failed processorCatches e 0 false
    | _ =>
      match v.file with
      | .none => finish processorCatches 0 v.runs
      | .empty => failed processorCatches .odin 0 false
      | .malformed => failed processorCatches .odin 0 false
      | .array l => afterFile processorCatches v.runs (submit processorSwallows l)
      | .single c => afterFile processorCatches v.runs (processorSingle c)

/-- The exceptions that end `run` of the receiver with status 1, FrameReceiverApp.cpp:272-286: all. -/
def receiverCatches : Exn → Bool := fun _ => true

/-- `FrameReceiverApp::run`, FrameReceiverApp.cpp:202-289. -/
def receiverRun (v : Env) : Result :=
  match v.construct with
  | .throws _ => ⟨.terminate, 0, false⟩
  | .ok =>
    match v.endpoint with
    | .throws e => failed receiverCatches e 0 false
    | _ =>
      match v.file with
      | .none => finish receiverCatches 0 v.runs
      | .empty => failed receiverCatches .odin 0 false
      | .malformed => failed receiverCatches .odin 0 false
      | .array l => afterFile receiverCatches v.runs (submit (fun _ => false) l)
      | .single c => afterFile receiverCatches v.runs (submit (fun _ => false) [c])

/-- `main`, FrameProcessorApp.cpp:276-299 and FrameReceiverApp.cpp:309-336. -/
def mainWith (run : Env → Result) (a : Args) (v : Env) : Result :=
  match parseArguments a with
  | none => ⟨.terminate, 0, false⟩
  | some n => if n = -1 then run v else ⟨.status n, 0, false⟩

def processorMain := mainWith processorRun
def receiverMain := mainWith receiverRun

/-! ### The simulator -/

/-- What the simulator meets. -/
structure Sim where
  options : Step            -- the first parser and `store`, FrameSimulatorApp.cpp:110-116
  logConfig : Option Step
  help : Bool
  version : Bool
  detector : Bool           -- a detector is named
  libpath : Bool            -- the path of its library is given
  loads : Bool              -- the library and the class are found
  detectorOptions : Step    -- the second parser and `store`, 161: unknown options and wrong values throw
  setup : Step × Bool       -- `plugin->setup`
  simulate : Step           -- `plugin->simulate`

/-- How `parse_arguments` ends: `exit(1)`, or with a plugin or none; the code that is returned is not used. -/
inductive Parsed where
  | exit1
  | plugin (loaded : Bool)
  deriving DecidableEq, Repr

/-- FrameSimulatorApp.cpp:187-200, behind the part for the detector. -/
def simTail (s : Sim) (loaded : Bool) : Parsed :=
  if s.version then .exit1
  else if s.detector then .plugin loaded else .exit1

/-- `parse_arguments`, FrameSimulatorApp.cpp:83-211. -/
def simParse (s : Sim) : Parsed :=
  match s.options with
  | .throws _ => .plugin false
  | .ok =>
    match s.logConfig with
    | some (.throws _) => .plugin false
    | _ =>
      if s.detector then
        if s.libpath then
          match s.detectorOptions with
          | .throws _ => .plugin s.loads
          | .ok => if s.help then .exit1 else simTail s s.loads
        else .exit1
      else if s.help then .exit1
      else simTail s false

/-- `main`, FrameSimulatorApp.cpp:213-240: how the program ends, and whether `simulate` was called. -/
def simMain (s : Sim) : Exit × Bool :=
  match simParse s with
  | .exit1 => (.status 1, false)
  | .plugin false => (.status 0, false)
  | .plugin true =>
    match s.setup with
    | (.throws _, _) => (.terminate, false)
    | (.ok, false) => (.status 0, false)
    | (.ok, true) =>
      match s.simulate with
      | .throws _ => (.terminate, true)
      | .ok => (.status 0, true)

end Verif.Programs
