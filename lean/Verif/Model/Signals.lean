/-
Model of what a signal (SIGINT, SIGTERM) does to the frame receiver.
Source: /repo/cpp/frameReceiver/src/FrameReceiverApp.cpp: controller_ 36, destructor 58-61, run 202-290, stop 296-299,
intHandler 303-306, main 310-336; FrameReceiverController.cpp: run 131-161, stop 170-184, stop_rx_thread 762-775;
FrameReceiverRxThread.cpp: stop 92-103, run_service 111-193, tick_timer; /repo/cpp/common/src/IpcReactor.cpp: run
247-339, stop 345-348, calculate_timeout 411-436.

The main thread and the RX thread interleave, and a signal is handled by either of them between two of its steps. The
system call in which a thread waits for input ends with EINTR when that thread handles a signal; `poll` is not restarted.
Configuration files that fail, and the reactor running out of channels, are not modelled; neither is what the logger does
in a signal handler. Time is counted (milliseconds) while the main thread waits for input.
-/
namespace Verif.Signals

/-- Where the main thread is. -/
inductive Main
  | boot            -- the handlers are installed (main 317-318), `controller_` is null
  | setup           -- the controller exists and is configured
  | test            -- at `while (!terminate_reactor_)`
  | enter           -- after the test, before the wait in `zmq::poll`
  | wait (left : Nat)   -- in `zmq::poll`, with the time left
  | handle          -- callbacks and timers
  | join            -- after the loop, in `stop_rx_thread`
  | close           -- the rest of the run
  | gone            -- `controller_.reset()` of the destructor of the application is done
  | ended           -- main has returned
  | crash           -- a null pointer has been dereferenced
deriving DecidableEq, Repr

/-- Where the RX thread is. -/
inductive Rx
  | none | busy | wait | ended
deriving DecidableEq, Repr

inductive Thread
  | main | rx
deriving DecidableEq, Repr

structure St where
  main : Main := .boot
  rx : Rx := .none
  run : Bool := false          -- `run_thread_`
  flag : Bool := false         -- `terminate_reactor_` of the main thread's reactor
  waited : Nat := 0            -- how long the main thread has waited for input
deriving DecidableEq, Repr

inductive Ev
  | main (timeout : Nat)       -- the main thread goes on; `timeout`: of `calculate_timeout`
  | wake                       -- there is input for the main thread
  | pass (ms : Nat)            -- time passes
  | timeout                    -- the wait of the main thread ends without input
  | start                      -- a configuration starts an RX thread
  | rx                         -- the RX thread goes on
  | signal (t : Thread)        -- a signal is handled by a thread
deriving DecidableEq, Repr

/-- The longest timeout, IpcReactor.cpp:418: one hour. -/
def hour : Nat := 3600000

/-- The main thread goes on; `none`: it waits. -/
def mainStep (s : St) (t : Nat) : Option St :=
  match s.main with
  | .boot => some { s with main := .setup }
  | .setup => some { s with main := .test }
  | .test => if s.flag then some { s with main := .join, run := false } else some { s with main := .enter }
  | .enter => if t ≤ hour then some { s with main := .wait t } else none
  | .wait _ => none
  | .handle => some { s with main := .test }
  | .join => if s.rx = .none ∨ s.rx = .ended then some { s with main := .close } else none
  | .close => some { s with main := .gone }
  | .gone => some { s with main := .ended }
  | .ended => none
  | .crash => none

/-- The RX thread goes on: the tick timer looks at `run_thread_`. -/
def rxStep (s : St) : Option St :=
  match s.rx with
  | .busy => some { s with rx := if s.run then .wait else .ended }
  | .wait => some { s with rx := .busy }
  | .none => none
  | .ended => none

/-- The handler, FrameReceiverApp.cpp:296-306: `controller_->stop()`, and the interruption of the thread's own wait,
IpcReactor.cpp:320-328. -/
def signal (s : St) (t : Thread) : St :=
  match s.main, t with
  | .boot, _ => { s with main := .crash }
  | .gone, _ => { s with main := .crash }
  | .ended, _ => s
  | .crash, _ => s
  | .wait _, .main => { s with main := .test, flag := true }
  | _, .main => { s with flag := true }
  | _, .rx => { s with flag := true, rx := if s.rx = .wait then .ended else s.rx }

def step (s : St) : Ev → Option St
  | .main t => mainStep s t
  | .wake =>
    match s.main with
    | .wait _ => some { s with main := .handle }
    | _ => none
  | .pass n =>
    match s.main with
    | .wait left => if n ≤ left then some { s with main := .wait (left - n), waited := s.waited + n } else none
    | _ => some s
  | .timeout => if s.main = .wait 0 then some { s with main := .handle } else none
  | .start =>
    if (s.main = .setup ∨ s.main = .handle) ∧ (s.rx = .none ∨ s.rx = .ended) then some { s with rx := .busy, run := true }
    else none
  | .rx => rxStep s
  | .signal t => if t = .rx ∧ (s.rx = .none ∨ s.rx = .ended) then none else some (signal s t)

def run (s : St) : List Ev → Option St
  | [] => some s
  | e :: es => (step s e).bind (run · es)

end Verif.Signals
