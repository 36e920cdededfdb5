import Verif.Model.Reactor
/-
Model of the watchdog of HDF5 calls and of the numbering of timers.
Source: /repo/cpp/frameProcessor/src/WatchdogTimer.cpp: constructor 16-27, start_timer 42-58, finish_timer 67-84, run 91-99,
heartbeat 113-123; /repo/cpp/frameProcessor/include/WatchdogTimer.h 36-58 (order of the members, which is the order of
their initialisation); /repo/cpp/common/src/IpcReactor.cpp: IpcReactorTimer 24-33, register_timer 210-225.

The duration returned by `finish_timer` and the log messages are not modelled. The worker runs the loop of Model/Reactor.
-/
namespace Verif.Watchdog
open Verif.Reactor

/-! ## Timing calls -/

structure W where
  r : Reactor.St
  id : Option Nat := none              -- `timer_id_`, not initialised

/-- The watchdog once its worker has registered the heartbeat (every millisecond, for ever), after other reactors have
taken `k` identifiers. -/
def begin_ (k : Nat) (now : Int) : W := { r := act (act {} (.others k)) (.regTimer now 1 0) }

/-- `start_timer`. -/
def start (w : W) (now : Int) (ms : Nat) : W :=
  if ms = 0 then w else { r := act w.r (.regTimer now ms 1), id := some w.r.next }

/-- `finish_timer`: the timer is removed; `none`: `timer_id_` is read before it is written. -/
def finish (w : W) : Option W := w.id.map fun i => { w with r := act w.r (.rmTimer i) }

/-- Rounds of the worker: no channels; callbacks of timers do nothing but stop the loop; other threads use this reactor
only through the watchdog. -/
def Worker (r : Round) : Prop :=
  (∀ a ∈ r.during, a = .stop ∨ ∃ n, a = .others n) ∧ (∀ c, r.chan c = []) ∧ (∀ i, ∀ a ∈ r.timer i, a = .stop) ∧
    (∀ i, 0 ≤ r.clock i ∧ r.clock i < 4611686018427387904)

/-- The states of a watchdog. -/
inductive Run : W → Prop
  | begin_ (k : Nat) (now : Int) : 0 ≤ now → now < 4611686018427387904 → Run (begin_ k now)
  | start (w : W) (now : Int) (ms : Nat) : Run w → 0 ≤ now → now < 4611686018427387904 → ms < 4294967296 →
      Run (start w now ms)
  | finish (w v : W) : Run w → finish w = some v → Run v
  | round (w : W) (r : Round) (t : Reactor.St) : Run w → Worker r → round r w.r = .again t → Run { w with r := t }
  | others (w : W) (n : Nat) : Run w → Run { w with r := act w.r (.others n) }

/-! ## Construction -/

/-- Where the constructing thread is. -/
inductive Pc
  | spawn                              -- initialise `worker_thread_`
  | clear                              -- initialise `worker_thread_running_`
  | reactor                            -- initialise `reactor_`
  | wait                               -- `while (!worker_thread_running_) {}`
  | done
deriving DecidableEq, Repr

/-- Where the worker is. -/
inductive Wc
  | absent | flag | register | loop
deriving DecidableEq, Repr

structure Boot where
  pc : Pc := .spawn
  wc : Wc := .absent
  running : Bool := false
  reactor : Bool := false
  ub : Bool := false                   -- the reactor has been used before its construction
deriving DecidableEq, Repr

/-- A step of the constructing thread. -/
def stepC (b : Boot) : Boot :=
  match b.pc with
  | .spawn => { b with pc := .clear, wc := .flag }
  | .clear => { b with pc := .reactor, running := false }
  | .reactor => { b with pc := .wait, reactor := true }
  | .wait => if b.running then { b with pc := .done } else b
  | .done => b

/-- A step of the worker. -/
def stepW (b : Boot) : Boot :=
  match b.wc with
  | .absent => b
  | .flag => { b with wc := .register, running := true }
  | .register => { b with wc := .loop, ub := b.ub || !b.reactor }
  | .loop => b

/-- A schedule: `true` for the constructing thread. -/
def boot (l : List Bool) (b : Boot) : Boot := l.foldl (fun b x => if x then stepC b else stepW b) b

/-! ## Numbering of timers -/

/-- `last_timer_id_` is shared by all reactors; each reactor has its own mutex, held during construction of a timer. -/
structure Ids where
  last : Nat := 0
  pending : Nat → Option Nat := fun _ => none   -- read by the holder of the mutex of a reactor, not yet written
  given : Nat → List Nat := fun _ => []         -- identifiers of the timers of a reactor

inductive IdStep
  | read (k : Nat)
  | write (k : Nat)

/-- The two halves of `last_timer_id_++` for reactor `k`. -/
def idStep (s : Ids) : IdStep → Ids
  | .read k => match s.pending k with
    | none => { s with pending := fun j => if j = k then some s.last else s.pending j }
    | some _ => s
  | .write k => match s.pending k with
    | none => s
    | some v => { last := v + 1, pending := fun j => if j = k then none else s.pending j,
                  given := fun j => if j = k then s.given j ++ [v] else s.given j }

def idRun (l : List IdStep) : Ids := l.foldl idStep {}

end Verif.Watchdog
