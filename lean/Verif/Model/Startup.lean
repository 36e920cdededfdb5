/-!
Start of the frame processor's controller.

* cpp/frameProcessor/src/FrameProcessorController.cpp: constructor 54-89, `setupMetaRxInterface` 964-976, `runIpcService` 1020-1041
* cpp/frameProcessor/include/FrameProcessorController.h 137-182 (order of the members, which is the order of their initialisation)

`reactor_` is a `shared_ptr`. It is declared after `ctrlThread_`, so the thread runs before the pointer has been constructed. Logging is not
modelled, nor that plain variables are shared between the threads without synchronisation.
-/
namespace Verif.Startup

/-- Where the constructing thread is. -/
inductive Pc
  | spawn        -- initialise `ctrlThread_`
  | reactor      -- initialise `reactor_` with a null pointer
  | wait         -- `while (!threadRunning_)`
  | register     -- `setupMetaRxInterface`
  | done
deriving DecidableEq, Repr

/-- Where the new thread is. -/
inductive Wc
  | absent | assign | timer | flag | enter | loop
deriving DecidableEq, Repr

/-- `reactor_`. -/
inductive Ptr
  | raw | null | set
deriving DecidableEq, Repr

structure Boot where
  pc : Pc := .spawn
  wc : Wc := .absent
  running : Bool := false        -- threadRunning_
  reactor : Ptr := .raw
  timer : Bool := false          -- the reactor has the tick timer
  channel : Bool := false        -- the reactor has the channel of meta data
  ub : Bool := false             -- `reactor_` has been used before its construction, or dereferenced as null
deriving DecidableEq, Repr

/-- A step of the constructing thread. -/
def stepC (b : Boot) : Boot :=
  match b.pc with
  | .spawn => { b with pc := .reactor, wc := .assign }
  | .reactor => { b with pc := .wait, reactor := .null }
  | .wait => if b.running then { b with pc := .register } else b
  | .register => { b with pc := .done, channel := true, ub := b.ub || (b.reactor != .set) }
  | .done => b

/-- A step of the new thread. -/
def stepW (b : Boot) : Boot :=
  match b.wc with
  | .absent => b
  | .assign => { b with wc := .timer, reactor := .set, ub := b.ub || (b.reactor == .raw) }
  | .timer => { b with wc := .flag, timer := true, ub := b.ub || (b.reactor != .set) }
  | .flag => { b with wc := .enter, running := true }
  | .enter => { b with wc := .loop, ub := b.ub || (b.reactor != .set) }
  | .loop => b

/-- A schedule: `true` for the constructing thread. -/
def boot (l : List Bool) (b : Boot) : Boot := l.foldl (fun b x => if x then stepC b else stepW b) b

end Verif.Startup
