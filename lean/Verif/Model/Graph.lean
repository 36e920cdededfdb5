import Verif.Model.Plugin
/-
Model of the plugins loaded by the frame processor and of their connections.
Source: /repo/cpp/frameProcessor/src/FrameProcessorController.cpp: configurePlugin 636-687, loadPlugin 700-730,
connectPlugin 739-765, disconnectPlugin 772-790, disconnectAllPlugins 795-803,
setupFrameReceiverInterface 875-902; SharedMemoryController.cpp: registerCallback, removeCallback,
handleRxChannel (the loop over the callbacks), injectEOA.
Plugins are identified by their index. The shared memory controller can be created (no endpoint is refused).
-/
namespace Verif.Graph
open Verif.StdMap Verif.Plugin

/-- A callback: a plugin, or the controller itself. -/
inductive Target
  | plugin (index : String)
  | controller
deriving DecidableEq, Repr

/-- `sharedMemController_` with the endpoints it was made for. -/
structure Smc where
  release : String
  ready : String
  cbs : Map String := []
deriving DecidableEq, Repr

/-- `plugins_`, `sharedMemController_`. -/
structure St where
  plugins : Map (Cbs Target) := []
  smc : Option Smc := none
deriving DecidableEq, Repr

inductive Req
  | load (index : String) (writer : Bool) (found : Bool)  -- class FileWriterPlugin?  class found in the library?
  | connect (index to_ : String)
  | disconnect (index from_ : String)
  | disconnectAll
  | setup (release ready : String)
deriving DecidableEq, Repr

/-- The state is unchanged if an error is thrown; `null`: a null pointer is dereferenced. -/
inductive Res
  | ok (s : St)
  | error
  | null
deriving DecidableEq, Repr

/-- Lines 711-713: the callbacks of a new plugin. -/
def fresh (writer : Bool) : Cbs Target :=
  if writer then (register {} "controller" .controller true).1 else {}

/-- `loadPlugin`, 700-730. -/
def load (s : St) (index : String) (writer found : Bool) : Res :=
  if (find s.plugins index).isNone then
    if found then .ok { s with plugins := set s.plugins index (fresh writer) } else .error
  else .ok s

/-- `registerCallback` of the shared memory controller. -/
def Smc.register (m : Smc) (name : String) : Smc :=
  if (find m.cbs name).isNone then { m with cbs := set m.cbs name name } else m

/-- `removeCallback` of the shared memory controller. -/
def Smc.remove (m : Smc) (name : String) : Smc := { m with cbs := erase m.cbs name }

/-- `connectPlugin`, 739-765. -/
def connect (s : St) (index to_ : String) : Res :=
  if (find s.plugins index).isSome then
    if to_ = "frame_receiver" then
      match s.smc with
      | some m => .ok { s with smc := some (m.register index) }
      | none => .error
    else
      match find s.plugins to_ with
      | some c => .ok { s with plugins := set s.plugins to_ (register c index (.plugin index) false).1 }
      | none => .ok s
  else .error

/-- `disconnectPlugin`, 772-790. -/
def disconnect (s : St) (index from_ : String) : Res :=
  if (find s.plugins index).isSome then
    if from_ = "frame_receiver" then
      match s.smc with
      | some m => .ok { s with smc := some (m.remove index) }
      | none => .null
    else
      match find s.plugins from_ with
      | some c => .ok { s with plugins := set s.plugins from_ (remove c index).1 }
      | none => .ok s
  else .error

/-- `disconnectAllPlugins`, 795-803. -/
def disconnectAll (s : St) : Res :=
  .ok { s with plugins := s.plugins.map (fun x => (x.1, (removeAll x.2).1)) }

/-- `setupFrameReceiverInterface`, 875-902. -/
def setup (s : St) (release ready : String) : Res :=
  match s.smc with
  | none => .ok { s with smc := some { release := release, ready := ready } }
  | some m =>
    if release ≠ m.release ∨ ready ≠ m.ready then .ok { s with smc := some { release := release, ready := ready } }
    else .ok s

def step (s : St) : Req → Res
  | .load i w f => load s i w f
  | .connect i t => connect s i t
  | .disconnect i t => disconnect s i t
  | .disconnectAll => disconnectAll s
  | .setup a b => setup s a b

/-- A sequence of requests; `none` after a null pointer was used. -/
def run (s : St) : List Req → Option St
  | [] => some s
  | r :: rs =>
    match step s r with
    | .ok s => run s rs
    | .error => run s rs
    | .null => none

/-- The callbacks that get a frame pushed by plugin `b`, or received by the shared memory controller if `b` is
`frame_receiver`. -/
def receivers (s : St) (b : String) : List Target :=
  if b = "frame_receiver" then
    match s.smc with
    | some m => m.cbs.map (fun x => .plugin x.2)
    | none => []
  else
    match find s.plugins b with
    | some c => ((push c {}).getD []).map Delivery.cb
    | none => []

end Verif.Graph
