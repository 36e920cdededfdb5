/-
Model of the threads that start and stop acquisitions of a file writer.
Source: /repo/cpp/frameProcessor/src/FileWriterPlugin.cpp: process_frame 139-171, process_end_of_acquisition 178-184,
start_writing 192-224, stop_writing 231-237, frame_in_acquisition 810-845, stop_acquisition 851-890,
run_close_file_timeout 916-941, execute 975-998.

Acquisition objects are numbered in the order in which they are made. Every look at and every change of `writing_`,
`current_acquisition_` and `next_acquisition_` is one step; threads interleave between the steps (that such accesses are
not atomic is the subject of C138). The methods that hold `mutex_` exclude each other; ends of acquisition and commands take
no mutex. The settings of an acquisition are reduced to whether it has a name. The branches for acquisitions of
no frames are left out.
-/
namespace Verif.Stops

/-- What follows a stop: nothing (the command), the rest of `stop_acquisition` (878-890) with the value of `restart`, or
`start_writing` (`frame_in_acquisition`). -/
inductive Then
  | nothing
  | rest (restart : Bool)
  | start
deriving DecidableEq, Repr

/-- Where a thread is. -/
inductive Pc
  | idle
  | check                      -- line 180: `if (writing_)`
  | decide                     -- lines 854-876
  | halt (r : Then)            -- line 233: `if (writing_)`
  | clear (r : Then)           -- line 234: `writing_ = false`
  | finish (r : Then)          -- line 235: `current_acquisition_->stop_acquisition`
  | choose (r : Bool)          -- lines 878-880
  | test                       -- line 195: `if (!writing_)`
  | swap                       -- lines 199-200
  | launch                     -- lines 209-222: `current_acquisition_->start_acquisition`
  | set                        -- line 209: `writing_ =`
deriving DecidableEq, Repr

/-- What is asked of the acquisitions. -/
inductive Ev
  | started (n : Nat)
  | stopped (n : Nat)
deriving DecidableEq, Repr

structure St where
  writing : Bool := false
  cur : Nat := 0               -- `current_acquisition_`
  next : Nat := 1              -- `next_acquisition_`
  named : Bool := false        -- it has a filename or an identifier
  fresh : Nat := 2             -- the number of the acquisition made next
  owner : Option Nat := none   -- of `mutex_`
  pc : Nat → Pc := fun _ => .idle
  log : List Ev := []

inductive Act
  | eoa (t : Nat)              -- an end of acquisition arrives
  | stop (t : Nat)             -- the command stop_writing
  | start (t : Nat)            -- the command start_writing
  | complete (t : Nat)         -- a frame completes the acquisition: `mutex_` is held
  | timer (t : Nat)            -- the close file timeout is over: `mutex_` is held
  | switch (t : Nat)           -- a frame of the next acquisition arrives: `mutex_` is held
  | config (t : Nat)           -- a message names the next acquisition: `mutex_` is held
  | step (t : Nat) (same ok : Bool) -- a thread goes on; `same`: names are equal (854-876), `ok`: the acquisition starts
deriving DecidableEq, Repr

def St.go (s : St) (t : Nat) (p : Pc) : St := { s with pc := fun u => if u = t then p else s.pc u }

/-- The end of a method. -/
def St.leave (s : St) (t : Nat) : St :=
  { s.go t .idle with owner := if s.owner = some t then none else s.owner }

/-- After a stop. -/
def St.after (s : St) (t : Nat) : Then → St
  | .nothing => s.leave t
  | .rest r => s.go t (.choose r)
  | .start => s.go t .test

/-- `writing_` and the log change. -/
def St.write (s : St) (b : Bool) : St := { s with writing := b }
def St.note (s : St) (e : Ev) : St := { s with log := s.log ++ [e] }

/-- Lines 199-200: the next acquisition becomes the current one. -/
def St.renew (s : St) : St := ⟨s.writing, s.next, s.fresh, false, s.fresh + 1, s.owner, s.pc, s.log⟩

/-- The next step of a thread. -/
def advance (s : St) (t : Nat) (same ok : Bool) : Option St :=
  match s.pc t with
  | .idle => none
  | .check => some (if s.writing then s.go t .decide else s.leave t)
  | .decide => some (s.go t (.halt (.rest (!(s.writing && same)))))
  | .halt r => some (if s.writing then s.go t (.clear r) else s.after t r)
  | .clear r => some ((s.write false).go t (.finish r))
  | .finish r => some ((s.note (.stopped s.cur)).after t r)
  | .choose r => some (if r && s.named then s.go t .test else s.leave t)
  | .test => some (if s.writing then s.leave t else s.go t .swap)
  | .swap => some (s.renew.go t .launch)
  | .launch => some (if ok then (s.note (.started s.cur)).go t .set else (s.write false).leave t)
  | .set => some ((s.write true).leave t)

/-- Begin a method without a mutex. -/
def enter (s : St) (t : Nat) (p : Pc) : Option St := if s.pc t = .idle then some (s.go t p) else none

/-- Begin a method that takes `mutex_`. -/
def lock (s : St) (t : Nat) (p : Pc) : Option St :=
  if s.pc t = .idle ∧ s.owner = none then some ({ s with owner := some t }.go t p) else none

def step (s : St) : Act → Option St
  | .eoa t => enter s t .check
  | .stop t => enter s t (.halt .nothing)
  | .start t => enter s t .test
  | .complete t => if s.writing then lock s t .decide else none
  | .timer t => lock s t .check
  | .switch t => lock s t (.halt .start)
  | .config t => if s.pc t = .idle ∧ s.owner = none then some { s with named := true } else none
  | .step t same ok => advance s t same ok

def run (s : St) : List Act → Option St
  | [] => some s
  | a :: as => (step s a).bind (run · as)

end Verif.Stops
