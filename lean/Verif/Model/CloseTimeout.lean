/-
Model of the locks of the file writer's close file timeout.
Source: /repo/cpp/frameProcessor/src/FileWriterPlugin.cpp: process_frame 139-171,
process_end_of_acquisition 178-184, configure 254-351, stop_acquisition 851-890,
start_close_file_timeout 896-905, run_close_file_timeout 916-941.

Three threads: the one delivering frames, the one delivering configuration messages, the timeout thread.
Mutexes: S = start_timeout_mutex_, F = close_file_mutex_, M = mutex_ (recursive; no thread here takes it
twice). The owner of a mutex is determined by where the threads are. What a frame turns out to be
(complete, complete with missing frames, other) is a choice of the environment; so is the moment a timed
wait expires. Spurious wake-ups of condition variables are not modelled.
-/
namespace Verif.CloseTimeout

/-- Where the frame thread is. -/
inductive P
  | idle
  | wantF      -- line 142
  | wantM      -- line 143, holds F
  | work       -- holds F, M
  | wantS      -- line 900, inside start_close_file_timeout, holds F, M
deriving Repr, DecidableEq

/-- Where the configuration thread is. -/
inductive C
  | idle
  | wantM      -- line 257
  | work       -- holds M
  | wantS      -- line 900, holds M
deriving Repr, DecidableEq

/-- Where the timeout thread is. -/
inductive T
  | wait       -- line 921: start_condition_.wait, S released
  | wantS      -- notified, needs S again
  | awake      -- line 922, holds S
  | wantF      -- line 924, holds S
  | loop       -- line 925, holds S, F
  | timed      -- line 926: timed_wait, holds S, F released
  | wantFn     -- notified, needs F again, holds S
  | wantFt     -- expired, needs F again, holds S
  | wantM      -- line 929, holds S, F
  | stopping   -- lines 930-934, holds S, F, M
deriving Repr, DecidableEq

structure St where
  p : P
  c : C
  t : T
  active : Bool     -- timeout_active_
deriving Repr, DecidableEq

/-- Owners of the mutexes. -/
def P.hasF : P → Bool | .wantM | .work | .wantS => true | _ => false
def P.hasM : P → Bool | .work | .wantS => true | _ => false
def C.hasM : C → Bool | .work | .wantS => true | _ => false
def T.hasS : T → Bool | .wait | .wantS => false | _ => true
def T.hasF : T → Bool | .loop | .wantM | .stopping => true | _ => false
def T.hasM : T → Bool | .stopping => true | _ => false

/-- The timeout thread is notified on `start_condition_` (no effect unless it waits there). -/
def T.notifyStart : T → T | .wait => .wantS | t => t
/-- The timeout thread is notified on `timeout_condition_`. -/
def T.notifyFrame : T → T | .timed => .wantFn | t => t

/-- The atomic steps. -/
inductive Act
  | pBegin | pTakeF | pTakeM
  | pPlain            -- a frame that does not end the acquisition; notifies the timeout thread, line 168
  | pComplete         -- stop_acquisition, then the notification
  | pMissing          -- complete with missing frames: start_close_file_timeout reads timeout_active_
  | pTakeS            -- the rest of start_close_file_timeout and of process_frame
  | pEnd              -- process_end_of_acquisition: no lock taken
  | cBegin | cTakeM | cDone
  | cStart            -- the message starts the timer
  | cTakeS
  | tTakeS | tArm | tTakeF | tLoop | tExpire | tTakeFn | tTakeFt | tTakeM | tStop
deriving Repr, DecidableEq

/-- One step; `none` if it is not possible now. -/
def step (s : St) : Act → Option St
  | .pBegin => if s.p = .idle then some { s with p := .wantF } else none
  | .pTakeF => if s.p = .wantF ∧ s.t.hasF = false then some { s with p := .wantM } else none
  | .pTakeM => if s.p = .wantM ∧ s.c.hasM = false ∧ s.t.hasM = false then some { s with p := .work } else none
  | .pPlain => if s.p = .work then some { s with p := .idle, t := s.t.notifyFrame } else none
  | .pComplete =>
    if s.p = .work then some { s with p := .idle, active := false, t := s.t.notifyFrame } else none
  | .pMissing =>
    if s.p = .work then
      if s.active then some { s with p := .idle, t := s.t.notifyFrame } else some { s with p := .wantS }
    else none
  | .pTakeS =>
    if s.p = .wantS ∧ s.t.hasS = false then
      some { s with p := .idle, t := s.t.notifyStart.notifyFrame }
    else none
  | .pEnd => if s.p = .idle then some { s with active := false } else none
  | .cBegin => if s.c = .idle then some { s with c := .wantM } else none
  | .cTakeM => if s.c = .wantM ∧ s.p.hasM = false ∧ s.t.hasM = false then some { s with c := .work } else none
  | .cDone => if s.c = .work then some { s with c := .idle } else none
  | .cStart =>
    if s.c = .work then
      if s.active then some { s with c := .idle } else some { s with c := .wantS }
    else none
  | .cTakeS => if s.c = .wantS ∧ s.t.hasS = false then some { s with c := .idle, t := s.t.notifyStart } else none
  | .tTakeS => if s.t = .wantS then some { s with t := .awake } else none
  | .tArm => if s.t = .awake then some { s with t := .wantF, active := true } else none
  | .tTakeF => if s.t = .wantF ∧ s.p.hasF = false then some { s with t := .loop } else none
  | .tLoop => if s.t = .loop then some { s with t := if s.active then .timed else .wait } else none
  | .tExpire => if s.t = .timed then some { s with t := .wantFt } else none
  | .tTakeFn => if s.t = .wantFn ∧ s.p.hasF = false then some { s with t := .loop } else none
  | .tTakeFt => if s.t = .wantFt ∧ s.p.hasF = false then some { s with t := .wantM } else none
  | .tTakeM => if s.t = .wantM ∧ s.p.hasM = false ∧ s.c.hasM = false then some { s with t := .stopping } else none
  | .tStop => if s.t = .stopping then some { s with t := .loop, active := false } else none

/-- A schedule; `none` if one of its steps is not possible. -/
def run (s : St) : List Act → Option St
  | [] => some s
  | a :: as => (step s a).bind (fun s' => run s' as)

/-- After the timeout thread has reached its first wait. `timeout_active_` is not initialised. -/
def init (active : Bool) : St := { p := .idle, c := .idle, t := .wait, active := active }

/-- Reachable by some schedule. -/
def Reach (s t : St) : Prop := ∃ as, run s as = some t

end Verif.CloseTimeout
