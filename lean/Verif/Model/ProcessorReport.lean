import Verif.Model.ReceiverReport
/-
The configuration that a frame processor reports, and what a processor does when it is sent that.
Source: /repo/cpp/frameProcessor/src/FrameProcessorController.cpp: `configure` 371-498, `requestConfiguration` 508-525,
`setupFrameReceiverInterface` 875-902, `setupControlInterface` 930-946, `setupMetaTxInterface` 990-1002; the names of the settings 20-43;
/repo/cpp/frameProcessor/src/SharedMemoryController.cpp: the constructor 31-75.

Of the controller: the endpoints, the name of the master dataset, whether there is a shared memory controller, and the plugins in the order of
their names. Each plugin is one value, its settings, which it reports under its name (C108-C114: what the single plugins report); what it
makes of a configuration is left to the environment. Whether an endpoint can be bound or connected to is left to the environment too: it is
asked with the endpoints that the process has bound already. Left out: the settings that a report does not have (`frames`, `debug_level`,
`plugin`, `store`, `execute`, `clear_errors`, `inject_eoa`), and the connections between the plugins.
-/
namespace Verif.ProcessorReport
open Verif.Ipc

structure Env where
  bind : List Str → Str → Bool         -- `zmq_bind` succeeds, these endpoints being bound by this process
  connect : Str → Bool                 -- `zmq_connect` succeeds
  take : Str → Json → Json → Option Json   -- `configure` of a plugin: its name, its settings, the message; `none`: an exception

structure Proc where
  ctrl : Str := []                     -- `ctrlChannelEndpoint_`
  metaTx : Str := []                   -- `metaTxChannelEndpoint_`
  ready : Str := []                    -- `frReadyEndpoint_`
  release : Str := []                  -- `frReleaseEndpoint_`
  master : Str := []                   -- `masterFrame`
  shm : Bool := false                  -- `sharedMemController_`
  bound : List Str := []
  plugins : List (Str × Json) := []    -- `plugins_`: names and settings

/-- `setupControlInterface`, 930-946, and `setupMetaTxInterface`, 990-1002: bind, then note. -/
def bindCtrl (e : Env) (x : Str) (p : Proc) : Option Proc :=
  if e.bind p.bound x then some { p with ctrl := x, bound := x :: p.bound } else none

def bindMeta (e : Env) (x : Str) (p : Proc) : Option Proc :=
  if e.bind p.bound x then some { p with metaTx := x, bound := x :: p.bound } else none

/-- What is left when the constructor of the new shared memory controller throws: 883-885. -/
def drop (p : Proc) : Proc := { p with shm := false }

/-- A new shared memory controller, 886-890. -/
def attach (pub sub : Str) (p : Proc) : Proc := { p with shm := true, ready := sub, release := pub }

/-- `setupFrameReceiverInterface`, 875-902; the constructor throws a `std::runtime_error` if it cannot connect. The processor, and whether it returns. -/
def setupFr (e : Env) (pub sub : Str) (p : Proc) : Proc × Bool :=
  if p.shm && decide (pub = p.release) && decide (sub = p.ready) then (p, true)
  else if e.connect sub && e.connect pub then (attach pub sub p, true) else (drop p, false)

/-- `get_param<std::string>` if `has_param`: `none`: an exception, `some none`: there is none. -/
def text (j : Json) (name : String) : Option (Option Str) :=
  match hasParam (some j) name.toList with
  | none => none
  | some false => some none
  | some true => ((getParam (some j) name.toList).bind Json.asStr).map some

/-- Lines 376-379. -/
def setMaster (j : Json) (p : Proc) : Proc × Bool :=
  match text j "hdf/master" with
  | none => (p, false)
  | some none => (p, true)
  | some (some x) => ({ p with master := x }, true)

/-- Lines 410-413. -/
def setCtrl (e : Env) (j : Json) (p : Proc) : Proc × Bool :=
  match text j "ctrl_endpoint" with
  | none => (p, false)
  | some none => (p, true)
  | some (some x) => match bindCtrl e x p with
    | none => (p, false)
    | some q => (q, true)

/-- Lines 415-418. -/
def setMeta (e : Env) (j : Json) (p : Proc) : Proc × Bool :=
  match text j "meta_endpoint" with
  | none => (p, false)
  | some none => (p, true)
  | some (some x) => match bindMeta e x p with
    | none => (p, false)
    | some q => (q, true)

/-- Lines 430-432. -/
def frTexts (e : Env) (f : Json) (p : Proc) : Proc × Bool :=
  match text f "fr_release_cnxn", text f "fr_ready_cnxn" with
  | some (some pub), some (some sub) => setupFr e pub sub p
  | _, _ => (p, false)

/-- Lines 428-433: both endpoints are needed. -/
def setFrOf (e : Env) (f : Json) (p : Proc) : Proc × Bool :=
  match hasParam (some f) "fr_release_cnxn".toList with
  | none => (p, false)
  | some false => (p, true)
  | some true => match hasParam (some f) "fr_ready_cnxn".toList with
    | none => (p, false)
    | some false => (p, true)
    | some true => frTexts e f p

/-- Lines 426-434. -/
def setFr (e : Env) (j : Json) (p : Proc) : Proc × Bool :=
  match hasParam (some j) "fr_setup".toList with
  | none => (p, false)
  | some false => (p, true)
  | some true => match getParam (some j) "fr_setup".toList with
    | none => (p, false)
    | some f => setFrOf e f p

/-- Lines 485-494: the settings of the plugins afterwards, and whether all of them returned. -/
def setPlugins (e : Env) (j : Json) : List (Str × Json) → List (Str × Json) × Bool
  | [] => ([], true)
  | (n, s) :: l =>
    match hasParam (some j) n with
    | none => ((n, s) :: l, false)
    | some false => ((n, s) :: (setPlugins e j l).1, (setPlugins e j l).2)
    | some true => match (getParam (some j) n).bind (e.take n s) with
      | none => ((n, s) :: l, false)
      | some t => ((n, t) :: (setPlugins e j l).1, (setPlugins e j l).2)

/-- The last part of `configure`. -/
def plugIn (e : Env) (j : Json) (p : Proc) : Proc × Bool := ({ p with plugins := (setPlugins e j p.plugins).1 }, (setPlugins e j p.plugins).2)

/-- One part after the other, until one throws. -/
def next (r : Proc × Bool) (f : Proc → Proc × Bool) : Proc × Bool := if r.2 then f r.1 else r

/-- `configure`: the processor afterwards, and whether the message was accepted. -/
def configure (e : Env) (j : Json) (p : Proc) : Proc × Bool :=
  next (next (next (next (setMaster j p) (setCtrl e j)) (setMeta e j)) (setFr e j)) (plugIn e j)

/-- The calls of `set_param` in `requestConfiguration`. -/
def calls (p : Proc) : List (Str × Json) :=
  [("ctrl_endpoint".toList, .str p.ctrl), ("meta_endpoint".toList, .str p.metaTx), ("fr_setup/fr_ready_cnxn".toList, .str p.ready),
   ("fr_setup/fr_release_cnxn".toList, .str p.release)] ++ p.plugins

/-- `requestConfiguration`: the parameters of the reply. -/
def report (p : Proc) : Json × Res := Receiver.setAll (.obj []) (calls p)

end Verif.ProcessorReport
