/-
Model of the shutdown of the frame processor.
Source: /repo/cpp/frameProcessor/src/FrameProcessorController.cpp: callback 259-280, run 804-815, shutdown 817-853,
waitForShutdown 858-862, the shutdown command 175-178; IFrameCallback.cpp: start, stop, isWorking, workerTask;
WorkQueue.h: add 66-77, remove 87-98.
Threads interleave; each access to a flag or a queue is one step (that the flags are not atomic is not modelled). A
queue whose waiters are always woken is assumed here, see `Verif.Model.WorkQueue` for the real one.
-/
namespace Verif.Shutdown

/-! Waiting for the request: 858-862, a wait without a condition. -/

inductive Waiter
  | before | waiting | woken
deriving DecidableEq, Repr

inductive Ev
  | wait        -- the main thread comes to `exitCondition_.wait`
  | request     -- `exitCondition_.notify_all`
  | spurious    -- the wait returns without a notification, which condition variables are allowed to do
deriving DecidableEq, Repr

def await (w : Waiter) : Ev → Waiter
  | .wait => if w = .before then .waiting else w
  | .request => if w = .waiting then .woken else w
  | .spurious => if w = .waiting then .woken else w

/-! Stopping the plugins. -/

/-- Where the thread of a plugin is: at the test of `while (working_)`, in `queue_->remove()`, in the callback, in the
loop of `FrameProcessorController::callback` that waits for `pluginShutdownSent_`, or at its end. -/
inductive Worker
  | test | take | busy | spin | ended
deriving DecidableEq, Repr

structure Plugin where
  working : Bool := true
  queue : List Bool := []      -- the work queue; false is a null pointer
  worker : Worker := .take
deriving DecidableEq, Repr

/-- Where the main thread is in `shutdown`: before the `stop()` of plugin k, in its `queue_->add`, before
`pluginShutdownSent_ = true`, in the loop `while (isWorking())` of plugin k, before `plugins_.clear()`, and after it. -/
inductive Main
  | stop (k : Nat) | add (k : Nat) | flag | wait (k : Nat) | clear | over
deriving DecidableEq, Repr

structure St where
  plugins : List Plugin
  main : Main := .stop 0
  sent : Bool := false
deriving DecidableEq, Repr

inductive Act
  | main
  | worker (p : Nat) (hit : Bool)  -- `hit`: the callback ends in the frame that reaches the shutdown frame count
  | feed (p : Nat)                 -- a frame ready notification adds a frame, without a limit
deriving DecidableEq, Repr

def maxQueue : Nat := 8

/-- The next step of the main thread in 817-834. -/
def mainStep (s : St) : Option St :=
  match s.main with
  | .stop k =>
    match s.plugins[k]? with
    | some p =>
      if p.working then some { s with plugins := s.plugins.set k { p with working := false }, main := .add k }
      else some { s with main := .stop (k + 1) }
    | none => some { s with main := .flag }
  | .add k =>
    match s.plugins[k]? with
    | some p =>
      if p.queue.length < maxQueue then
        some { s with plugins := s.plugins.set k { p with queue := p.queue ++ [false] }, main := .stop (k + 1) }
      else none
    | none => none
  | .flag => some { s with main := .wait 0, sent := true }
  | .wait k =>
    match s.plugins[k]? with
    | some p => if p.working then none else some { s with main := .wait (k + 1) }
    | none => some { s with main := .clear }
  | .clear => some { s with main := .over }
  | .over => none

/-- The next step of a plugin's thread. -/
def workerStep (sent : Bool) (p : Plugin) (hit : Bool) : Option Plugin :=
  match p.worker with
  | .test => some { p with worker := if p.working then .take else .ended }
  | .take =>
    match p.queue with
    | [] => none
    | true :: q => some { p with queue := q, worker := .busy }
    | false :: q => some { p with queue := q, worker := .test }
  | .busy => some { p with worker := if hit then .spin else .test }
  | .spin => if sent then some { p with worker := .test } else none
  | .ended => none

/-- One step of one thread; `none` if it is blocked. -/
def step (s : St) : Act → Option St
  | .main => mainStep s
  | .worker i hit =>
    match s.plugins[i]? with
    | some p =>
      match workerStep s.sent p hit with
      | some p' => some { s with plugins := s.plugins.set i p' }
      | none => none
    | none => none
  | .feed i =>
    match s.plugins[i]? with
    | some p => some { s with plugins := s.plugins.set i { p with queue := p.queue ++ [true] } }
    | none => none

def run (s : St) : List Act → Option St
  | [] => some s
  | a :: as =>
    match step s a with
    | some s => run s as
    | none => none

end Verif.Shutdown
