/-!
The timeout thread of the file writer from its start to the destruction of the writer.

* cpp/frameProcessor/src/FileWriterPlugin.cpp: constructor 78-104 (the thread is started in line 93), destructor 109-126,
  `start_close_file_timeout` 896-905, `run_close_file_timeout` 916-941, `process_frame` 139-171 (only the lock and the
  notification), `stop_acquisition` 851-890 (only the flags)

S = `start_timeout_mutex_`, F = `close_file_mutex_`. While the writer is alive the other threads appear through what they do
under these locks: asking for the timer, notifying that a frame has been processed, clearing `timeout_active_`, starting and
stopping to write; how these threads block each other is the subject of C16 (`CloseTimeout`). During the destructor no other
thread uses the writer (C76 is about that), so `mutex_` is free. Condition variables may wake up spuriously, as POSIX and Boost
allow. When a timed wait expires is a choice of the environment.
-/
namespace Verif.WriterEnd

/-- Where the destructor is. -/
inductive D
  | alive      -- not called
  | run        -- line 111
  | active     -- line 112
  | wantF      -- line 115
  | hasF       -- line 116, holds F
  | wantS      -- line 119
  | hasS       -- line 120, holds S
  | join       -- line 122
  | last       -- lines 123-125
  | done
deriving DecidableEq, Repr

/-- Where the timeout thread is. -/
inductive T
  | start      -- line 919: created, needs S
  | check      -- line 920, holds S
  | wait       -- line 921: `start_condition_.wait`, S released
  | wantS      -- woken, needs S again
  | awake      -- line 922, holds S
  | arm        -- line 923, holds S
  | wantF      -- line 924, holds S
  | loop       -- line 925, holds S, F
  | timed      -- line 926: `timed_wait`, holds S, F released
  | wantFn     -- woken, needs F again, holds S
  | wantFt     -- expired, needs F again, holds S
  | expired    -- lines 929-934, holds S, F
  | ended      -- the thread has ended
deriving DecidableEq, Repr

structure St where
  d : D
  t : T
  running : Bool    -- `timeout_thread_running_`
  active : Bool     -- `timeout_active_`
  writing : Bool    -- `writing_`
deriving DecidableEq, Repr

/-- The timeout thread holds S. -/
def T.hasS : T → Bool | .start | .wait | .wantS | .ended => false | _ => true
/-- The timeout thread holds F. -/
def T.hasF : T → Bool | .loop | .expired => true | _ => false
/-- A notification on `start_condition_`. -/
def T.notifyStart : T → T | .wait => .wantS | t => t
/-- A notification on `timeout_condition_`. -/
def T.notifyFrame : T → T | .timed => .wantFn | t => t

inductive Act
  | request                       -- start_close_file_timeout 898-901
  | frame                         -- line 168, under F
  | clear                         -- line 889
  | write (b : Bool)              -- writing starts or stops
  | destroy                       -- the destructor is called
  | d                             -- next step of the destructor
  | t                             -- next step of the timeout thread
  | expire                        -- the timed wait expires
  | spurious                      -- a wait wakes up without a notification
deriving DecidableEq, Repr

inductive Ev
  | requested                     -- the timer was asked for, and it was not active
  | stopped                       -- the timeout stopped the acquisition, lines 930-932
deriving DecidableEq, Repr

/-- Next step of the destructor. -/
def stepD (s : St) : Option St :=
  match s.d with
  | .alive | .done => none
  | .run => some { s with d := .active, running := false }
  | .active => some { s with d := .wantF, active := false }
  | .wantF => if s.t.hasF then none else some { s with d := .hasF }
  | .hasF => some { s with d := .wantS, t := s.t.notifyFrame }
  | .wantS => if s.t.hasS then none else some { s with d := .hasS }
  | .hasS => some { s with d := .join, t := s.t.notifyStart }
  | .join => if s.t = .ended then some { s with d := .last } else none
  | .last => some { s with d := .done, writing := false }

/-- Next step of the timeout thread (a thread that waits takes none). -/
def stepT (s : St) : Option (St × List Ev) :=
  match s.t with
  | .start => if s.d = .hasS then none else some ({ s with t := .check }, [])
  | .check => some ({ s with t := if s.running then .wait else .ended }, [])
  | .wait => none
  | .wantS => if s.d = .hasS then none else some ({ s with t := .awake }, [])
  | .awake => some ({ s with t := if s.running then .arm else .check }, [])
  | .arm => some ({ s with t := .wantF, active := true }, [])
  | .wantF => if s.d = .hasF then none else some ({ s with t := .loop }, [])
  | .loop => some ({ s with t := if s.active then .timed else .check }, [])
  | .timed => none
  | .wantFn => if s.d = .hasF then none else some ({ s with t := .loop }, [])
  | .wantFt => if s.d = .hasF then none else some ({ s with t := .expired }, [])
  | .expired => some ({ s with t := .loop, active := false, writing := s.writing && !s.active },
      if s.writing && s.active then [.stopped] else [])
  | .ended => none

/-- One step; `none` if it is not possible now. A stopped acquisition may be followed by the next at once (873-885): `write true`. -/
def step (s : St) : Act → Option (St × List Ev)
  | .request =>
    if s.d = .alive ∧ s.active = false ∧ s.t.hasS = false then some ({ s with t := s.t.notifyStart }, [.requested]) else none
  | .frame => if s.d = .alive ∧ s.t.hasF = false then some ({ s with t := s.t.notifyFrame }, []) else none
  | .clear => if s.d = .alive then some ({ s with active := false }, []) else none
  | .write b => if s.d = .alive then some ({ s with writing := b }, []) else none
  | .destroy => if s.d = .alive then some ({ s with d := .run }, []) else none
  | .d => (stepD s).map fun r => (r, [])
  | .t => stepT s
  | .expire => if s.t = .timed then some ({ s with t := .wantFt }, []) else none
  | .spurious =>
    if s.t = .wait then some ({ s with t := .wantS }, [])
    else if s.t = .timed then some ({ s with t := .wantFn }, []) else none

/-- A schedule and what happens in it; `none` if one of its steps is not possible. -/
def run (s : St) : List Act → Option (St × List Ev)
  | [] => some (s, [])
  | a :: as => (step s a).bind fun r => (run r.1 as).map fun q => (q.1, r.2 ++ q.2)

/-- After the constructor. `timeout_active_` is not initialised. -/
def init (active : Bool) : St := { d := .alive, t := .start, running := true, active := active, writing := false }

end Verif.WriterEnd
