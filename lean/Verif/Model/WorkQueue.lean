/-
Model of the work queue between plugins.
Source: /repo/cpp/frameProcessor/include/WorkQueue.h: max_queue_size 18, add 66-77, remove 87-98.

One step is one critical section: from taking the mutex to releasing it, or to waiting. Producers and
consumers wait on the same condition variable. `pthread_cond_signal` wakes one waiting thread, chosen by the
scheduler, if there is one; spurious wake-ups are steps of their own. A woken thread is ready to check its
condition again. Threads are anonymous: at most `n` are in `add` and at most `nc` in `remove` at a time.
-/
namespace Verif.WorkQueue

/-- A pending `add(item, ignore_max_limit)`. -/
structure Add where
  item : Nat
  ignore : Bool := false
deriving DecidableEq, Repr

structure State where
  queue : List Nat := []
  pr : List Add := []          -- producers ready to (re-)enter the critical section
  pw : List Add := []          -- producers waiting on the condition
  cr : Nat := 0                -- consumers ready
  cw : Nat := 0                -- consumers waiting
  -- history
  asked : List Nat := []       -- items of all calls of add
  pushed : List Nat := []
  popped : List Nat := []
  ignored : Nat := 0           -- pushes that ignored the limit
deriving DecidableEq, Repr

/-- Who is woken by a signal. -/
inductive Wake
  | nobody
  | producer (i : Nat)
  | consumer
deriving DecidableEq, Repr

/-- `pthread_cond_signal`: `none` if the choice is not possible. -/
def signal (s : State) : Wake → Option State
  | .nobody => if s.pw = [] ∧ s.cw = 0 then some s else none
  | .producer i =>
    match s.pw[i]? with
    | some a => some { s with pr := s.pr ++ [a], pw := s.pw.eraseIdx i }
    | none => none
  | .consumer => if s.cw > 0 then some { s with cr := s.cr + 1, cw := s.cw - 1 } else none

inductive Step
  | callAdd (a : Add)                 -- a producer calls add
  | callRemove                        -- a consumer calls remove
  | producer (i : Nat) (w : Wake)     -- ready producer i enters
  | consumer (w : Wake)               -- a ready consumer enters
  | spuriousP (i : Nat)
  | spuriousC
deriving DecidableEq, Repr

/-- Lines 69-75 of `add`, for a producer no longer in the ready list. -/
def enterAdd (M : Nat) (s : State) (a : Add) (w : Wake) : Option State :=
  if a.ignore = false ∧ s.queue.length ≥ M then some { s with pw := s.pw ++ [a] }
  else signal { s with queue := s.queue ++ [a.item], pushed := s.pushed ++ [a.item],
                       ignored := s.ignored + if a.ignore then 1 else 0 } w

/-- Lines 90-95 of `remove`. -/
def enterRemove (s : State) (w : Wake) : Option State :=
  match s.queue with
  | [] => some { s with cw := s.cw + 1 }
  | x :: q => signal { s with queue := q, popped := s.popped ++ [x] } w

/-- One step with `n` producer threads, `nc` consumer threads and limit `M`. -/
def step (M n nc : Nat) (s : State) : Step → Option State
  | .callAdd a =>
    if s.pr.length + s.pw.length < n then some { s with pr := s.pr ++ [a], asked := s.asked ++ [a.item] } else none
  | .callRemove => if s.cr + s.cw < nc then some { s with cr := s.cr + 1 } else none
  | .producer i w =>
    match s.pr[i]? with
    | some a => enterAdd M { s with pr := s.pr.eraseIdx i } a w
    | none => none
  | .consumer w => if s.cr > 0 then enterRemove { s with cr := s.cr - 1 } w else none
  | .spuriousP i =>
    match s.pw[i]? with
    | some a => some { s with pr := s.pr ++ [a], pw := s.pw.eraseIdx i }
    | none => none
  | .spuriousC => if s.cw > 0 then some { s with cr := s.cr + 1, cw := s.cw - 1 } else none

/-- A schedule. -/
def run (M n nc : Nat) (s : State) : List Step → Option State
  | [] => some s
  | l :: ls => (step M n nc s l).bind (fun s => run M n nc s ls)

/-- `max_queue_size`. -/
def maxQueueSize : Nat := 8

end Verif.WorkQueue
