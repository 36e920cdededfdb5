/-!
Starting and stopping the receiver thread.

* cpp/frameReceiver/src/FrameReceiverRxThread.cpp: `start` 51-84, `stop` 92-103, `run_service` 111-189
* cpp/frameReceiver/src/FrameReceiverUDPRxThread.cpp: `run_specific_service` 32-93, `cleanup_specific_service` 95-97

Open sockets belong to the process. A bound socket keeps its port until it is closed (no `SO_REUSEADDR` for UDP).
-/
namespace Verif.RxThread

/-! Waiting for the thread -/

inductive Out
  | up | failed | ub
deriving DecidableEq, Repr

/-- What `start` sees: `thread_running_` and `thread_init_error_`. -/
structure Seen where
  running : Bool
  error : Bool
deriving DecidableEq, Repr

/-- `++thread_retry_count >> thread_retry_max`, a 32 bit value shifted by 1000: undefined from a shift of 32 on. -/
def timeout (width count shift : Nat) : Option Bool := if width ≤ shift then none else some (count >>> shift ≠ 0)

/-- The loop of lines 66-81; `none`: still waiting after all the observations. -/
def wait (shift : Nat) : List Seen → Nat → Option Out
  | [], _ => none
  | o :: l, count =>
    if o.running then some .up
    else if o.error then some .failed
    else match timeout 32 (count + 1) shift with
      | none => some .ub
      | some true => some .failed
      | some false => wait shift l (count + 1)

def start (l : List Seen) : Option Out := wait 1000 l 0

/-! Sockets -/

/-- Open sockets of the process: ports bound, and sockets without port. -/
structure Os where
  bound : List Nat := []
  loose : Nat := 0
deriving DecidableEq, Repr

inductive Fault
  | create             -- `socket` fails
  | other              -- `setsockopt`, the address or, for other reasons than the port being in use here, `bind`
deriving DecidableEq, Repr

/-- `run_specific_service`: the sockets, the ports registered, whether there was an error. -/
def openPorts (fault : Nat → Option Fault) : List Nat → Os → Os × List Nat × Bool
  | [], os => (os, [], false)
  | p :: l, os =>
    match fault p with
    | some .create => (os, [], true)
    | some .other => ({ os with loose := os.loose + 1 }, [], true)
    | none =>
      if p ∈ os.bound then ({ os with loose := os.loose + 1 }, [], true)
      else match openPorts fault l { os with bound := p :: os.bound } with
        | (os, reg, e) => (os, p :: reg, e)

/-- Lines 178-184: the registered sockets are closed. -/
def closePorts (reg : List Nat) (os : Os) : Os := { os with bound := os.bound.filter (fun p => decide (p ∉ reg)) }

/-- A receiver thread from start to stop: the sockets, and whether it came up. After an error the thread returns at lines
154-157, before the cleanup, and `stop` does none for UDP. -/
def session (fault : Nat → Option Fault) (ports : List Nat) (os : Os) : Os × Bool :=
  match openPorts fault ports os with
  | (os, _, true) => (os, false)
  | (os, reg, false) => (closePorts reg os, true)

end Verif.RxThread
