import Verif.Model.StdMap
/-
Model of three parts of the frame processor's control: stored configurations, the configuration file, and the
number of frames after which it shuts down.
Source: /repo/cpp/frameProcessor/src/FrameProcessorController.cpp: configure 371-498 (store 438-455, execute
458-487, plugins 489-497), callback 263-280; FrameProcessorApp.cpp: run (the part about the configuration file),
configure_controller.
-/
namespace Verif.ProcessorRun
open Verif.StdMap

/-- A configuration message. `id` stands for the settings of the controller and of the plugins in it, `bad` for a
message in which one of the settings of the controller is refused with an exception. A stored value is a list of
messages; a single object is a list of one. -/
inductive Cfg
  | mk (id : Nat) (bad : Bool) (store : Option (String × List Cfg)) (exec : Option String)

def Cfg.id : Cfg → Nat | .mk i _ _ _ => i
def Cfg.bad : Cfg → Bool | .mk _ b _ _ => b
def Cfg.store : Cfg → Option (String × List Cfg) | .mk _ _ s _ => s
def Cfg.exec : Cfg → Option String | .mk _ _ _ e => e

/-- What happens: the settings of the controller in message `id` are made, then later those of the plugins. -/
inductive Ev
  | ctrl (id : Nat)
  | plugins (id : Nat)
deriving DecidableEq, Repr

structure Res where
  stored : Map (List Cfg)
  trace : List Ev
  threw : Bool

/-- Lines 438-455. -/
def put (st : Map (List Cfg)) : Option (String × List Cfg) → Map (List Cfg)
  | some (i, v) => set st i v
  | none => st

/-- Lines 458-487: the messages to be submitted. -/
def todo (st : Map (List Cfg)) : Option String → List Cfg
  | some i => (find st i).getD []
  | none => []

/-- `configure` on each of a list of messages in turn; `none` if the number of nested or successive calls given
does not suffice. -/
def run : Nat → Map (List Cfg) → List Cfg → Option Res
  | 0, _, _ => none
  | _ + 1, st, [] => some { stored := st, trace := [], threw := false }
  | n + 1, st, c :: cs =>
    if c.bad then some { stored := st, trace := [], threw := true }
    else
      match run n (put st c.store) (todo (put st c.store) c.exec) with
      | none => none
      | some r =>
        if r.threw then some { r with trace := .ctrl c.id :: r.trace }
        else
          match run n r.stored cs with
          | none => none
          | some r' => some { r' with trace := .ctrl c.id :: (r.trace ++ .plugins c.id :: r'.trace) }

/-! The configuration file -/

inductive File
  | array (cs : List Cfg)
  | object (c : Cfg)

def emptyCfg : Cfg := .mk 0 false none none

/-- `FrameProcessorApp::run`: the messages submitted, each with its own `configure_controller`, which catches
errors. For a single object the message `json_config_msg` is made but `config_msg`, which is empty, is submitted. -/
def submitted : File → List Cfg
  | .array cs => cs
  | .object _ => [emptyCfg]

/-! The number of frames -/

/-- `totalFrames`, `shutdownFrameCount`, `masterFrame`. -/
structure Count where
  total : Int := 0
  limit : Int
  master : String := ""
deriving DecidableEq, Repr

inductive Op
  | frame (dataset : String) (eoa : Bool)    -- a frame, or an end of acquisition, passed on by a file writer
  | frames (n : Nat)                         -- a message with "frames"
  | master (name : String)                   -- a message with "hdf/master"
deriving DecidableEq, Repr

/-- Line 267. -/
def bump (s : Count) (d : String) : Count :=
  if s.master = "" ∨ d = s.master then { s with total := s.total + 1 } else s

/-- `callback` 263-280 and `configure` 375-393: the new state, and whether the shutdown is signalled. -/
def step (s : Count) : Op → Count × Bool
  | .frame d _ => (bump s d, (bump s d).total == (bump s d).limit)
  | .frames n => (if n ≠ 0 then { s with limit := n } else s, false)
  | .master m => ({ s with master := m }, false)

/-- The constructor: `shutdownFrameCount` is not initialised, so it has any value. -/
def init (garbage : Int) : Count := { limit := garbage }

/-- The signals, one for each operation. -/
def signals (s : Count) : List Op → List Bool
  | [] => []
  | o :: os => (step s o).2 :: signals (step s o).1 os

end Verif.ProcessorRun
