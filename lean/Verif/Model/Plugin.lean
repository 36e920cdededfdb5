import Verif.Model.StdMap
/-
Model of the base class of the plugins: its callbacks and its list of errors.
Source: /repo/cpp/frameProcessor/src/FrameProcessorPlugin.cpp: set_error 62-79, set_warning 87-104,
clear_errors 108-114, get_errors 128-133, get_warnings 138-143, register_callback 268-299,
remove_callback 306-325, remove_all_callbacks 330-347, callback 356-376, push 393-408 and 418-429.
A callback (`boost::shared_ptr<IFrameCallback>`) is a value of any type `α`.
Not modelled: changes of the maps while another thread iterates over them, which is a data race.
-/
namespace Verif.Plugin
open Verif.StdMap

/-- `m.erase(k)`. -/
def erase {α} (m : Map α) (k : String) : Map α := m.filter (fun x => x.1 ≠ k)

/-- `callbacks_` (frames are queued) and `blocking_callbacks_` (called directly). -/
structure Cbs (α : Type) where
  queued : Map α := []
  blocking : Map α := []
deriving DecidableEq, Repr

/-- `register_callback`, 268-299, with the callback to which the registration is confirmed. -/
def register {α} (c : Cbs α) (name : String) (cb : α) (blk : Bool) : Cbs α × Option α :=
  if blk then
    if (find c.queued name).isSome then (c, none)
    else if (find c.blocking name).isNone then ({ c with blocking := set c.blocking name cb }, some cb)
    else (c, none)
  else
    if (find c.blocking name).isSome then (c, none)
    else if (find c.queued name).isNone then ({ c with queued := set c.queued name cb }, some cb)
    else (c, none)

/-- `remove_callback`, 306-325, with the callback to which the removal is confirmed. -/
def remove {α} (c : Cbs α) (name : String) : Cbs α × Option α :=
  match find c.queued name with
  | some cb => ({ c with queued := erase c.queued name }, some cb)
  | none =>
    match find c.blocking name with
    | some cb => ({ c with blocking := erase c.blocking name }, some cb)
    | none => (c, none)

/-- `remove_all_callbacks`, 330-347. -/
def removeAll {α} (c : Cbs α) : Cbs α × List α :=
  ({}, c.blocking.map (·.2) ++ c.queued.map (·.2))

/-- What `push` asks of a frame. -/
structure Frame where
  eoa : Bool := false
  valid : Bool := true
deriving DecidableEq, Repr

/-- One delivery: the name and the callback; `call` returns before the next delivery. -/
inductive Delivery (α : Type)
  | call (name : String) (cb : α)
  | enqueue (name : String) (cb : α)
deriving DecidableEq, Repr

/-- The callback that gets the frame. -/
def Delivery.cb {α} : Delivery α → α
  | .call _ cb => cb
  | .enqueue _ cb => cb

/-- `push(frame)`, 393-408: the deliveries in order; `none` is the thrown error. -/
def push {α} (c : Cbs α) (f : Frame) : Option (List (Delivery α)) :=
  if f.eoa = false ∧ f.valid = false then none
  else some (c.blocking.map (fun x => .call x.1 x.2) ++ c.queued.map (fun x => .enqueue x.1 x.2))

/-- `push(plugin_name, frame)`, 418-429. -/
def pushTo {α} (c : Cbs α) (name : String) (f : Frame) : Option (List (Delivery α)) :=
  if f.eoa = false ∧ f.valid = false then none
  else some (((find c.blocking name).map (fun x => Delivery.call name x)).toList ++
    ((find c.queued name).map (fun x => Delivery.enqueue name x)).toList)

/-- What `callback` does with a frame: lines 362-375. -/
inductive Work
  | processFrame
  | endOfAcquisition      -- process_end_of_acquisition, then push
deriving DecidableEq, Repr

/-- `callback`, 356-376: the method called, and the frame pushed by the base class itself. -/
def callback (f : Frame) : Work × Option Frame :=
  if f.eoa then (.endOfAcquisition, some f) else (.processFrame, none)

/-! Errors and warnings -/

/-- Lines 68-77 (and 93-102): the loop over the messages, then the new one at the end. -/
def add (l : List String) (msg : String) : List String :=
  if l.any (fun x => msg == x) then l else l ++ [msg]

structure Log where
  errors : List String := []
  warnings : List String := []
deriving DecidableEq, Repr

inductive LogOp
  | error (m : String)
  | warning (m : String)
  | clear
deriving DecidableEq, Repr

/-- `set_error`, `set_warning`, `clear_errors`: each under the mutex, so any history is a sequence. -/
def logStep (l : Log) : LogOp → Log
  | .error m => { l with errors := add l.errors m }
  | .warning m => { l with warnings := add l.warnings m }
  | .clear => {}

end Verif.Plugin
